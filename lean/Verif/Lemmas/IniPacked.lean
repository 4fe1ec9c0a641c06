import Verif.Lemmas.Ini

/-
Dictionaries from which nothing has been removed: the positions in use come first, so that a lookup of a key that
is there meets no unused position.
-/
namespace Msat.Ini
open IniSpec

/-- The positions in use come first. -/
def Packed (slots : List Slot) : Prop :=
  ∀ (i j : Nat) s t, i < j → slots[i]? = some s → slots[j]? = some t → t.key.isSome → s.key.isSome

theorem packed_replicate (n : Nat) : Packed (List.replicate n Slot.zero) := by
  intro i j s t _ _ ht hk
  rw [List.eq_of_mem_replicate (List.mem_of_getElem? ht)] at hk
  cases hk

theorem packed_append {slots : List Slot} (h : Packed slots) (n : Nat) :
    Packed (slots ++ List.replicate n Slot.zero) := by
  intro i j s t hij hs ht hk
  rw [List.getElem?_append] at hs ht
  by_cases hj : j < slots.length
  · rw [if_pos hj] at ht
    rw [if_pos (by omega)] at hs
    exact h i j s t hij hs ht hk
  · rw [if_neg hj] at ht
    rw [List.eq_of_mem_replicate (List.mem_of_getElem? ht)] at hk
    cases hk

theorem firstFree_before : ∀ {slots : List Slot} {i : Nat}, firstFree slots = some i →
    ∀ (j : Nat) s, j < i → slots[j]? = some s → s.key.isSome := by
  intro slots
  induction slots with
  | nil => intro i h; cases h
  | cons t ss ih =>
    intro i h j s hj hs
    rw [firstFree] at h
    split at h
    · simp only [Option.some.injEq] at h
      omega
    · rename_i k hk
      cases hf : firstFree ss with
      | none => rw [hf] at h; cases h
      | some m =>
        rw [hf] at h
        simp only [Option.map_some, Option.some.injEq] at h
        cases j with
        | zero =>
          simp only [List.getElem?_cons_zero, Option.some.injEq] at hs
          rw [← hs, hk]
          rfl
        | succ j => exact ih hf j s (by omega) (by simpa using hs)

theorem packed_fill {slots : List Slot} {i : Nat} (h : Packed slots) (hf : firstFree slots = some i) (new : Slot)
    (hn : new.key.isSome) : Packed (slots.set i new) := by
  obtain ⟨f, hfi, hfk⟩ := firstFree_some hf
  intro a b s t hab hs ht hk
  rw [List.getElem?_set] at hs ht
  by_cases hia : i = a
  · rw [if_pos hia] at hs
    split at hs
    · injection hs with hs; rw [← hs]; exact hn
    · cases hs
  · rw [if_neg hia] at hs
    by_cases hib : i = b
    · exact firstFree_before hf a s (by omega) hs
    · rw [if_neg hib] at ht
      exact h a b s t hab hs ht hk

theorem packed_replace {slots : List Slot} {i : Nat} {old new : Slot} (h : Packed slots) (hi : slots[i]? = some old)
    (hk' : new.key = old.key) : Packed (slots.set i new) := by
  have key : ∀ (a : Nat) s, (slots.set i new)[a]? = some s → ∃ s', slots[a]? = some s' ∧ s'.key = s.key := by
    intro a s hs
    rw [List.getElem?_set] at hs
    split at hs
    · rename_i e
      subst e
      split at hs
      · injection hs with hs
        exact ⟨old, hi, by rw [← hs, hk']⟩
      · cases hs
    · exact ⟨s, hs, rfl⟩
  intro a b s t hab hs ht hk
  obtain ⟨s', hs', es⟩ := key a s hs
  obtain ⟨t', ht', et⟩ := key b t ht
  rw [← es]
  exact h a b s' t' hab hs' ht' (by rw [et]; exact hk)

theorem packed_set {d d' : Dict} {key : Bytes} {v : Option Bytes} (h : Packed d.slots) (e : set d key v = .ok d') :
    Packed d'.slots := by
  have hins : ∀ d', insert d (hash key) key v = .ok d' → Packed d'.slots := by
    intro d' e
    unfold insert at e
    dsimp only at e
    by_cases hfull : d.n = d.slots.length
    · rw [if_pos hfull] at e
      cases hf : firstFree (d.slots ++ List.replicate d.slots.length Slot.zero) with
      | none => rw [hf] at e; cases e
      | some i =>
        rw [hf] at e
        injection e with e
        rw [← e]
        exact packed_fill (packed_append h _) hf _ rfl
    · rw [if_neg hfull] at e
      cases hf : firstFree d.slots with
      | none => rw [hf] at e; cases e
      | some i =>
        rw [hf] at e
        injection e with e
        rw [← e]
        exact packed_fill h hf _ rfl
  unfold set at e
  dsimp only at e
  split at e
  · rename_i i hi
    split at e
    · rename_i s hs
      injection e with e
      rw [← e]
      exact packed_replace h hs rfl
    · cases e
  · exact hins d' e

/-- A key that is there is found, whatever its hash. -/
theorem get_present {d : Dict} {hist : List Op} (h : Inv d hist) (hp : Packed d.slots) (key : Bytes) (v : Option Bytes)
    (hv : value hist key = some v) : get d key = .ok (.value v) := by
  obtain ⟨i, s, hi, hk, rfl⟩ := (h.val key v).2 hv
  have hh := h.hh i s key hi hk
  have huq : ∀ (j : Nat) t, d.slots[j]? = some t → t.key = some key → j = i :=
    fun j t ht htk => h.uq _ _ t s key ht hi htk hk
  unfold get
  generalize d.slots = slots at hp hi huq
  clear hv h
  induction slots generalizing i with
  | nil => simp at hi
  | cons t ss ih =>
    rw [getLoop]
    cases i with
    | zero =>
      simp only [List.getElem?_cons_zero, Option.some.injEq] at hi
      subst hi
      rw [if_pos hh.symm, hk]
      simp
    | succ i =>
      have hi' : ss[i]? = some s := by simpa using hi
      have ih := ih i (fun a b s t hab hs ht => hp (a + 1) (b + 1) s t (by omega) (by simpa using hs) (by simpa using ht))
        hi' (fun j t ht htk => by have := huq (j + 1) t (by simpa using ht) htk; omega)
      have hsome := hp 0 (i + 1) t s (by omega) rfl hi (by rw [hk]; rfl)
      split
      · split
        · rename_i hk'; rw [hk'] at hsome; cases hsome
        · rename_i k hk'
          rw [if_neg, ih]
          rintro rfl
          have := huq 0 t rfl hk'
          omega
      · exact ih

end Msat.Ini
