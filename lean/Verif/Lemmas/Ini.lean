import Verif.Model.Ini
import Verif.Spec.Ini
import Verif.Lemmas.Outcome

namespace Msat.Ini
open IniSpec

/-- What holds of a dictionary after a history of operations. -/
structure Inv (d : Dict) (hist : List Op) : Prop where
  hh : ∀ (i : Nat) s k, d.slots[i]? = some s → s.key = some k → s.hash = hash k
  h0 : ∀ (i : Nat) s, d.slots[i]? = some s → s.key = none → s = Slot.zero
  uq : ∀ (i j : Nat) s t k, d.slots[i]? = some s → d.slots[j]? = some t → s.key = some k → t.key = some k → i = j
  cnt : d.n = (d.slots.countP (·.key.isSome) : Nat)
  pos : 128 ≤ d.slots.length
  val : ∀ k v, (∃ (i : Nat) (s : Slot), d.slots[i]? = some s ∧ s.key = some k ∧ s.val = v) ↔ value hist k = some v

theorem value_append (hist : List Op) (op : Op) (k : Bytes) :
    value (hist ++ [op]) k = if op.key = k then (match op with | .set _ v => some v | .unset _ => none)
      else value hist k := by
  unfold value
  rw [List.foldl_append]
  rfl

theorem inv_new (size : Nat) : Inv (newDict size) [] := by
  have hz : ∀ (i : Nat) s, (newDict size).slots[i]? = some s → s = Slot.zero := by
    intro i s h
    unfold newDict at h
    exact List.eq_of_mem_replicate (List.mem_of_getElem? h)
  refine ⟨?_, ?_, ?_, ?_, ?_, ?_⟩
  · intro i s k h hk; rw [hz i s h] at hk; cases hk
  · intro i s h _; exact hz i s h
  · intro i j s t k h _ hk; rw [hz i s h] at hk; cases hk
  · unfold newDict
    simp [List.countP_replicate, Slot.zero]
  · unfold newDict
    simp only [List.length_replicate]
    split <;> omega
  · intro k v
    constructor
    · rintro ⟨i, s, h, hk, _⟩; rw [hz i s h] at hk; cases hk
    · intro h; cases h

theorem findKey_some {key : Bytes} : ∀ {slots : List Slot} {i : Nat}, findKey (hash key) key slots = some i →
    ∃ s, slots[i]? = some s ∧ s.key = some key := by
  intro slots
  induction slots with
  | nil => intro i h; cases h
  | cons s ss ih =>
    intro i h
    rw [findKey] at h
    split at h
    · cases hf : findKey (hash key) key ss with
      | none => rw [hf] at h; cases h
      | some j =>
        rw [hf] at h
        simp only [Option.map_some, Option.some.injEq] at h
        subst h
        obtain ⟨t, ht, hk⟩ := ih hf
        exact ⟨t, by simpa using ht, hk⟩
    · rename_i k hk
      split at h
      · rename_i hc
        simp only [Option.some.injEq] at h
        subst h
        exact ⟨s, rfl, by rw [hk, hc.2]⟩
      · cases hf : findKey (hash key) key ss with
        | none => rw [hf] at h; cases h
        | some j =>
          rw [hf] at h
          simp only [Option.map_some, Option.some.injEq] at h
          subst h
          obtain ⟨t, ht, hk⟩ := ih hf
          exact ⟨t, by simpa using ht, hk⟩

theorem findKey_none {key : Bytes} : ∀ {slots : List Slot},
    (∀ (i : Nat) s k, slots[i]? = some s → s.key = some k → s.hash = hash k) →
    findKey (hash key) key slots = none → ∀ (i : Nat) s, slots[i]? = some s → s.key ≠ some key := by
  intro slots
  induction slots with
  | nil => intro _ _ i s h; simp at h
  | cons s ss ih =>
    intro hh h i t ht hk
    have hh' : ∀ (i : Nat) t k, ss[i]? = some t → t.key = some k → t.hash = hash k :=
      fun i t k h hk => hh (i + 1) t k (by simpa using h) hk
    rw [findKey] at h
    cases i with
    | zero =>
      simp only [List.getElem?_cons_zero, Option.some.injEq] at ht
      subst ht
      rw [hk] at h
      simp only [(hh 0 s key rfl hk).symm, and_self, if_true] at h
      cases h
    | succ i =>
      have hn : findKey (hash key) key ss = none := by
        split at h
        · simpa using h
        · split at h
          · cases h
          · simpa using h
      exact ih hh' hn i t (by simpa using ht) hk

theorem firstFree_some : ∀ {slots : List Slot} {i : Nat}, firstFree slots = some i →
    ∃ s, slots[i]? = some s ∧ s.key = none := by
  intro slots
  induction slots with
  | nil => intro i h; cases h
  | cons s ss ih =>
    intro i h
    rw [firstFree] at h
    split at h
    · rename_i hk
      simp only [Option.some.injEq] at h
      subst h
      exact ⟨s, rfl, hk⟩
    · cases hf : firstFree ss with
      | none => rw [hf] at h; cases h
      | some j =>
        rw [hf] at h
        simp only [Option.map_some, Option.some.injEq] at h
        subst h
        obtain ⟨t, ht, hk⟩ := ih hf
        exact ⟨t, by simpa using ht, hk⟩

theorem firstFree_none : ∀ {slots : List Slot}, firstFree slots = none →
    slots.countP (·.key.isSome) = slots.length := by
  intro slots
  induction slots with
  | nil => intro _; rfl
  | cons s ss ih =>
    intro h
    rw [firstFree] at h
    split at h
    · cases h
    · rename_i k hk
      have := ih (by simpa using h)
      rw [List.countP_cons_of_pos (by simp [hk]), this]
      rfl

/-- Replacing the value of an existing entry. -/
theorem inv_replace {d : Dict} {hist : List Op} (h : Inv d hist) {key : Bytes} {i : Nat} {s : Slot}
    (hi : d.slots[i]? = some s) (hk : s.key = some key) (v : Option Bytes) :
    Inv { d with slots := d.slots.set i { s with val := v } } (hist ++ [.set key v]) := by
  have hlt : i < d.slots.length := (List.getElem?_eq_some_iff.1 hi).1
  have hg : ∀ (j : Nat) t, (d.slots.set i { s with val := v })[j]? = some t →
      (j = i ∧ t = { s with val := v }) ∨ (j ≠ i ∧ d.slots[j]? = some t) := by
    intro j t ht
    rw [List.getElem?_set] at ht
    split at ht
    · rename_i e
      exact .inl ⟨e.symm, (Option.some.inj ht).symm⟩
    · rename_i e
      exact .inr ⟨fun e' => e e'.symm, ht⟩
  refine ⟨?_, ?_, ?_, ?_, ?_, ?_⟩
  · intro j t k ht htk
    rcases hg j t ht with ⟨rfl, rfl⟩ | ⟨_, ht⟩
    · exact h.hh j s k hi htk
    · exact h.hh j t k ht htk
  · intro j t ht htk
    rcases hg j t ht with ⟨rfl, rfl⟩ | ⟨_, ht⟩
    · dsimp only at htk; rw [hk] at htk; cases htk
    · exact h.h0 j t ht htk
  · intro j j' t t' k ht ht' htk htk'
    rcases hg j t ht with ⟨rfl, rfl⟩ | ⟨hne, hu⟩ <;> rcases hg j' t' ht' with ⟨rfl, rfl⟩ | ⟨hne', hu'⟩
    · rfl
    · exact h.uq _ _ s t' k hi hu' htk htk'
    · exact h.uq _ _ t s k hu hi htk htk'
    · exact h.uq _ _ t t' k hu hu' htk htk'
  · have e := (List.getElem?_eq_some_iff.1 hi).2
    show d.n = _
    rw [List.countP_set hlt, e, h.cnt]
    have hp : (s.key.isSome) = true := by rw [hk]; rfl
    have hc : 0 < d.slots.countP (·.key.isSome) := by
      rw [List.countP_pos_iff]
      exact ⟨s, List.mem_of_getElem? hi, hp⟩
    simp only [hp, if_true]
    omega
  · show 128 ≤ (d.slots.set i _).length
    rw [List.length_set]; exact h.pos
  · intro k w
    rw [value_append]
    show _ ↔ (if key = k then some v else value hist k) = some w
    constructor
    · rintro ⟨j, t, ht, htk, htv⟩
      rcases hg j t ht with ⟨rfl, rfl⟩ | ⟨hne, ht⟩
      · dsimp only at htk htv
        rw [hk] at htk
        rw [if_pos (Option.some.inj htk), htv]
      · rw [if_neg, ← h.val]
        · exact ⟨j, t, ht, htk, htv⟩
        · rintro rfl
          exact hne (h.uq _ _ t s key ht hi htk hk)
    · intro e
      split at e
      · rename_i ek
        refine ⟨i, { s with val := v }, by rw [List.getElem?_set_self hlt], by rw [← ek]; exact hk, Option.some.inj e⟩
      · rename_i ek
        obtain ⟨j, t, ht, htk, htv⟩ := (h.val k w).2 e
        refine ⟨j, t, ?_, htk, htv⟩
        rw [List.getElem?_set, if_neg]
        · exact ht
        · rintro rfl
          rw [hi] at ht
          injection ht with ht
          subst ht
          rw [hk] at htk
          exact ek (Option.some.inj htk)

/-- Growing. -/
theorem inv_grow {d : Dict} {hist : List Op} (h : Inv d hist) (n : Nat) :
    Inv ⟨d.n, d.slots ++ List.replicate n Slot.zero⟩ hist := by
  have hg : ∀ (j : Nat) t, (d.slots ++ List.replicate n Slot.zero)[j]? = some t →
      d.slots[j]? = some t ∨ t = Slot.zero := by
    intro j t ht
    rw [List.getElem?_append] at ht
    split at ht
    · exact .inl ht
    · exact .inr (List.eq_of_mem_replicate (List.mem_of_getElem? ht))
  have hz : ∀ t k, t = Slot.zero → ¬ t.key = some k := by rintro t k rfl h; cases h
  refine ⟨?_, ?_, ?_, ?_, ?_, ?_⟩
  · intro j t k ht htk
    rcases hg j t ht with ht | rfl
    · exact h.hh j t k ht htk
    · cases htk
  · intro j t ht htk
    rcases hg j t ht with ht | rfl
    · exact h.h0 j t ht htk
    · rfl
  · intro j j' t t' k ht ht' htk htk'
    rcases hg j t ht with ht | e
    · rcases hg j' t' ht' with ht' | e
      · exact h.uq _ _ t t' k ht ht' htk htk'
      · exact absurd htk' (hz _ _ e)
    · exact absurd htk (hz _ _ e)
  · show d.n = _
    rw [List.countP_append, h.cnt]
    simp [List.countP_replicate, Slot.zero]
  · show 128 ≤ (d.slots ++ _).length
    rw [List.length_append]; have := h.pos; omega
  · intro k w
    rw [← h.val]
    constructor
    · rintro ⟨j, t, ht, htk, htv⟩
      rcases hg j t ht with ht | e
      · exact ⟨j, t, ht, htk, htv⟩
      · exact absurd htk (hz _ _ e)
    · rintro ⟨j, t, ht, htk, htv⟩
      have hlt : j < d.slots.length := (List.getElem?_eq_some_iff.1 ht).1
      exact ⟨j, t, by rw [List.getElem?_append_left hlt]; exact ht, htk, htv⟩

/-- A new entry. -/
theorem inv_add {d : Dict} {hist : List Op} (h : Inv d hist) {key : Bytes} {i : Nat} {s : Slot}
    (hno : ∀ (j : Nat) t, d.slots[j]? = some t → t.key ≠ some key) (hi : d.slots[i]? = some s) (hk : s.key = none)
    (v : Option Bytes) :
    Inv ⟨d.n + 1, d.slots.set i ⟨some key, v, hash key⟩⟩ (hist ++ [.set key v]) := by
  have hlt : i < d.slots.length := (List.getElem?_eq_some_iff.1 hi).1
  have hg : ∀ (j : Nat) t, (d.slots.set i ⟨some key, v, hash key⟩)[j]? = some t →
      (j = i ∧ t = ⟨some key, v, hash key⟩) ∨ (j ≠ i ∧ d.slots[j]? = some t) := by
    intro j t ht
    rw [List.getElem?_set] at ht
    split at ht
    · rename_i e
      exact .inl ⟨e.symm, (Option.some.inj ht).symm⟩
    · rename_i e
      exact .inr ⟨fun e' => e e'.symm, ht⟩
  refine ⟨?_, ?_, ?_, ?_, ?_, ?_⟩
  · intro j t k ht htk
    rcases hg j t ht with ⟨rfl, rfl⟩ | ⟨_, ht⟩
    · rw [← Option.some.inj htk]
    · exact h.hh j t k ht htk
  · intro j t ht htk
    rcases hg j t ht with ⟨rfl, rfl⟩ | ⟨_, ht⟩
    · cases htk
    · exact h.h0 j t ht htk
  · intro j j' t t' k ht ht' htk htk'
    rcases hg j t ht with ⟨rfl, rfl⟩ | ⟨hne, hu⟩ <;> rcases hg j' t' ht' with ⟨rfl, rfl⟩ | ⟨hne', hu'⟩
    · rfl
    · dsimp only at htk; rw [← htk] at htk'; exact absurd htk' (hno _ _ hu')
    · dsimp only at htk'; rw [← htk'] at htk; exact absurd htk (hno _ _ hu)
    · exact h.uq _ _ t t' k hu hu' htk htk'
  · have e := (List.getElem?_eq_some_iff.1 hi).2
    show d.n + 1 = _
    rw [List.countP_set hlt, e, h.cnt]
    have hp : (s.key.isSome) = false := by rw [hk]; rfl
    simp [hp]
  · show 128 ≤ (d.slots.set i _).length
    rw [List.length_set]; exact h.pos
  · intro k w
    rw [value_append]
    show _ ↔ (if key = k then some v else value hist k) = some w
    constructor
    · rintro ⟨j, t, ht, htk, htv⟩
      rcases hg j t ht with ⟨rfl, rfl⟩ | ⟨hne, ht⟩
      · dsimp only at htk htv
        rw [if_pos (Option.some.inj htk), htv]
      · rw [if_neg, ← h.val]
        · exact ⟨j, t, ht, htk, htv⟩
        · rintro rfl
          exact hno _ _ ht htk
    · intro e
      split at e
      · rename_i ek
        exact ⟨i, _, by rw [List.getElem?_set_self hlt], by rw [← ek], Option.some.inj e⟩
      · rename_i ek
        obtain ⟨j, t, ht, htk, htv⟩ := (h.val k w).2 e
        refine ⟨j, t, ?_, htk, htv⟩
        rw [List.getElem?_set, if_neg]
        · exact ht
        · rintro rfl
          rw [hi] at ht
          injection ht with ht
          subst ht
          rw [hk] at htk
          cases htk

/-- Removing an entry. -/
theorem inv_remove {d : Dict} {hist : List Op} (h : Inv d hist) {key : Bytes} {i : Nat} {s : Slot}
    (hi : d.slots[i]? = some s) (hk : s.key = some key) :
    Inv ⟨d.n - 1, d.slots.set i Slot.zero⟩ (hist ++ [.unset key]) := by
  have hlt : i < d.slots.length := (List.getElem?_eq_some_iff.1 hi).1
  have hg : ∀ (j : Nat) t, (d.slots.set i Slot.zero)[j]? = some t →
      (j = i ∧ t = Slot.zero) ∨ (j ≠ i ∧ d.slots[j]? = some t) := by
    intro j t ht
    rw [List.getElem?_set] at ht
    split at ht
    · rename_i e
      exact .inl ⟨e.symm, (Option.some.inj ht).symm⟩
    · rename_i e
      exact .inr ⟨fun e' => e e'.symm, ht⟩
  refine ⟨?_, ?_, ?_, ?_, ?_, ?_⟩
  · intro j t k ht htk
    rcases hg j t ht with ⟨rfl, rfl⟩ | ⟨_, ht⟩
    · cases htk
    · exact h.hh j t k ht htk
  · intro j t ht htk
    rcases hg j t ht with ⟨rfl, rfl⟩ | ⟨_, ht⟩
    · rfl
    · exact h.h0 j t ht htk
  · intro j j' t t' k ht ht' htk htk'
    rcases hg j t ht with ⟨rfl, rfl⟩ | ⟨hne, hu⟩ <;> rcases hg j' t' ht' with ⟨rfl, rfl⟩ | ⟨hne', hu'⟩
    · rfl
    · cases htk
    · cases htk'
    · exact h.uq _ _ t t' k hu hu' htk htk'
  · have e := (List.getElem?_eq_some_iff.1 hi).2
    show d.n - 1 = _
    rw [List.countP_set hlt, e, h.cnt]
    have hp : (s.key.isSome) = true := by rw [hk]; rfl
    have hc : 0 < d.slots.countP (·.key.isSome) := by
      rw [List.countP_pos_iff]
      exact ⟨s, List.mem_of_getElem? hi, hp⟩
    have hz : Slot.zero.key.isSome = false := rfl
    simp only [hp, hz, if_true, Bool.false_eq_true, if_false]
    omega
  · show 128 ≤ (d.slots.set i _).length
    rw [List.length_set]; exact h.pos
  · intro k w
    rw [value_append]
    show _ ↔ (if key = k then none else value hist k) = some w
    constructor
    · rintro ⟨j, t, ht, htk, htv⟩
      rcases hg j t ht with ⟨rfl, rfl⟩ | ⟨hne, ht⟩
      · cases htk
      · rw [if_neg, ← h.val]
        · exact ⟨j, t, ht, htk, htv⟩
        · rintro rfl
          exact hne (h.uq _ _ t s key ht hi htk hk)
    · intro e
      split at e
      · cases e
      · rename_i ek
        obtain ⟨j, t, ht, htk, htv⟩ := (h.val k w).2 e
        refine ⟨j, t, ?_, htk, htv⟩
        rw [List.getElem?_set, if_neg]
        · exact ht
        · rintro rfl
          rw [hi] at ht
          injection ht with ht
          subst ht
          rw [hk] at htk
          exact ek (Option.some.inj htk)

theorem inv_set {d : Dict} {hist : List Op} (h : Inv d hist) (key : Bytes) (v : Option Bytes) :
    ∃ d', set d key v = .ok d' ∧ Inv d' (hist ++ [.set key v]) := by
  have hins : (∀ (j : Nat) t, d.slots[j]? = some t → t.key ≠ some key) →
      ∃ d', insert d (hash key) key v = .ok d' ∧ Inv d' (hist ++ [.set key v]) := by
    intro hno
    unfold insert
    dsimp only
    by_cases hfull : d.n = d.slots.length
    · rw [if_pos hfull]
      have hg := inv_grow h d.slots.length
      have hno' : ∀ (j : Nat) t, (d.slots ++ List.replicate d.slots.length Slot.zero)[j]? = some t →
          t.key ≠ some key := by
        intro j t ht
        rw [List.getElem?_append] at ht
        split at ht
        · exact hno j t ht
        · rw [List.eq_of_mem_replicate (List.mem_of_getElem? ht)]; intro h; cases h
      cases hf : firstFree (d.slots ++ List.replicate d.slots.length Slot.zero) with
      | none =>
        have := firstFree_none hf
        have h1 := hg.cnt
        dsimp only at h1
        rw [this, List.length_append, List.length_replicate] at h1
        have := h.pos
        omega
      | some i =>
        obtain ⟨s, hi, hk⟩ := firstFree_some hf
        dsimp only
        exact ⟨_, rfl, inv_add hg hno' hi hk v⟩
    · rw [if_neg hfull]
      cases hf : firstFree d.slots with
      | none =>
        have := firstFree_none hf
        have h1 := h.cnt
        rw [this] at h1
        exact absurd h1 hfull
      | some i =>
        obtain ⟨s, hi, hk⟩ := firstFree_some hf
        dsimp only
        exact ⟨_, rfl, inv_add h hno hi hk v⟩
  unfold set
  dsimp only
  by_cases hn : d.n > 0
  · rw [if_pos hn]
    cases hf : findKey (hash key) key d.slots with
    | none => exact hins (findKey_none h.hh hf)
    | some i =>
      obtain ⟨s, hi, hk⟩ := findKey_some hf
      dsimp only
      rw [hi]
      exact ⟨_, rfl, inv_replace h hi hk v⟩
  · rw [if_neg hn]
    refine hins ?_
    intro j t ht hk
    have : 0 < d.slots.countP (·.key.isSome) := by
      rw [List.countP_pos_iff]
      exact ⟨t, List.mem_of_getElem? ht, by rw [hk]; rfl⟩
    have := h.cnt
    omega

theorem inv_unset {d : Dict} {hist : List Op} (h : Inv d hist) (key : Bytes) :
    Inv (unset d key) (hist ++ [.unset key]) := by
  unfold unset
  cases hf : findKey (hash key) key d.slots with
  | none =>
    have hno := findKey_none h.hh hf
    refine ⟨h.hh, h.h0, h.uq, h.cnt, h.pos, ?_⟩
    intro k w
    rw [h.val, value_append]
    show _ ↔ (if key = k then none else value hist k) = some w
    by_cases e : key = k
    · subst e
      rw [if_pos rfl]
      constructor
      · intro hv
        obtain ⟨i, s, hi, hk, _⟩ := (h.val _ _).2 hv
        exact absurd hk (hno i s hi)
      · intro h; cases h
    · rw [if_neg e]
  | some i =>
    obtain ⟨s, hi, hk⟩ := findKey_some hf
    exact inv_remove h hi hk

theorem getLoop_default {h : UInt32} {key : Bytes} : ∀ {slots : List Slot},
    (∀ s ∈ slots, s.key = none → s.hash ≠ h) → (∀ s ∈ slots, s.key ≠ some key) →
    getLoop h key slots = .ok .default := by
  intro slots
  induction slots with
  | nil => intro _ _; rfl
  | cons s ss ih =>
    intro h0 hno
    have ih := ih (fun t ht => h0 t (List.mem_cons_of_mem _ ht)) (fun t ht => hno t (List.mem_cons_of_mem _ ht))
    rw [getLoop]
    split
    · rename_i e
      split
      · rename_i hk; exact absurd e.symm (h0 s (by simp) hk)
      · rename_i k hk
        rw [if_neg, ih]
        rintro rfl
        exact hno s (by simp) hk
    · exact ih

theorem getLoop_found {key : Bytes} : ∀ {slots : List Slot} {i : Nat} {s : Slot},
    (∀ s ∈ slots, s.key = none → s.hash ≠ hash key) →
    (∀ (j : Nat) t, slots[j]? = some t → t.key = some key → j = i) →
    slots[i]? = some s → s.key = some key → s.hash = hash key →
    getLoop (hash key) key slots = .ok (.value s.val) := by
  intro slots
  induction slots with
  | nil => intro i s _ _ h; simp at h
  | cons t ss ih =>
    intro i s h0 huq hi hk hh
    rw [getLoop]
    cases i with
    | zero =>
      simp only [List.getElem?_cons_zero, Option.some.injEq] at hi
      subst hi
      rw [if_pos hh.symm, hk]
      simp
    | succ i =>
      have hi' : ss[i]? = some s := by simpa using hi
      have ih := ih (fun t ht => h0 t (List.mem_cons_of_mem _ ht))
        (fun j t ht htk => by have := huq (j + 1) t (by simpa using ht) htk; omega) hi' hk hh
      split
      · rename_i e
        split
        · rename_i hk'; exact absurd e.symm (h0 t (by simp) hk')
        · rename_i k hk'
          rw [if_neg, ih]
          rintro rfl
          have := huq 0 t rfl hk'
          omega
      · exact ih

theorem get_inv {d : Dict} {hist : List Op} (h : Inv d hist) (key : Bytes) (hz : hash key ≠ 0) :
    get d key = .ok (match value hist key with | none => .default | some v => .value v) := by
  have h0 : ∀ s ∈ d.slots, s.key = none → s.hash ≠ hash key := by
    intro s hs hk e
    obtain ⟨i, hi⟩ := List.getElem?_of_mem hs
    rw [h.h0 i s hi hk] at e
    exact hz e.symm
  unfold get
  cases hv : value hist key with
  | none =>
    apply getLoop_default h0
    intro s hs hk
    obtain ⟨i, hi⟩ := List.getElem?_of_mem hs
    have := (h.val key s.val).1 ⟨i, s, hi, hk, rfl⟩
    rw [hv] at this
    cases this
  | some v =>
    obtain ⟨i, s, hi, hk, rfl⟩ := (h.val key v).2 hv
    exact getLoop_found h0 (fun j t ht htk => h.uq _ _ t s key ht hi htk hk) hi hk (h.hh i s key hi hk)

theorem get_ub {d : Dict} {hist : List Op} (h : Inv d hist) (key : Bytes) (hz : hash key = 0)
    (hv : value hist key = none) (hfree : ∃ s ∈ d.slots, s.key = none) : get d key = .ub := by
  have hno : ∀ s ∈ d.slots, s.key ≠ some key := by
    intro s hs hk
    obtain ⟨i, hi⟩ := List.getElem?_of_mem hs
    have := (h.val key s.val).1 ⟨i, s, hi, hk, rfl⟩
    rw [hv] at this
    cases this
  have h0 : ∀ s ∈ d.slots, s.key = none → s.hash = 0 := by
    intro s hs hk
    obtain ⟨i, hi⟩ := List.getElem?_of_mem hs
    rw [h.h0 i s hi hk]; rfl
  unfold get
  rw [hz]
  generalize d.slots = slots at *
  induction slots with
  | nil => obtain ⟨s, hs, _⟩ := hfree; cases hs
  | cons t ss ih =>
    rw [getLoop]
    cases hk : t.key with
    | none => rw [if_pos (h0 t (by simp) hk).symm]
    | some k =>
      have hne : key ≠ k := by
        rintro rfl; exact hno t (by simp) hk
      have hih := ih (by
        obtain ⟨s, hs, hsk⟩ := hfree
        cases hs with
        | head => rw [hk] at hsk; cases hsk
        | tail _ hs => exact ⟨s, hs, hsk⟩)
        (fun s hs => hno s (List.mem_cons_of_mem _ hs)) (fun s hs => h0 s (List.mem_cons_of_mem _ hs))
      split
      · dsimp only; rw [if_neg hne]; exact hih
      · exact hih

end Msat.Ini
