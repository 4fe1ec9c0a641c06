import Verif.Model.IniHeap
import Verif.Lemmas.Ini
import Mathlib.Data.List.Perm.Basic
import Mathlib.Tactic.Common

/-
The memory of dictionaries: which blocks a dictionary owns, and that the operations on the heap do what Model/Ini.lean says of the contents.
-/
namespace Msat.IniHeap
open Msat

/-- The blocks of a list are in use, all different, and what was never allocated is not in use. -/
structure Good (m : Heap) (l : List Nat) : Prop where
  top : ∀ p, m.next ≤ p → m.blocks p = none
  nodup : l.Nodup
  live : ∀ p ∈ l, (m.blocks p).isSome

/-- The heap without the blocks of a list: what belongs to others. -/
def others (m : Heap) (l : List Nat) : Nat → Option Bytes := fun p => if p ∈ l then none else m.blocks p

theorem Good.perm {m : Heap} {l l' : List Nat} (h : Good m l) (hp : l.Perm l') : Good m l' :=
  ⟨h.top, hp.nodup_iff.1 h.nodup, fun p hm => h.live p (hp.mem_iff.2 hm)⟩

theorem others_perm {m : Heap} {l l' : List Nat} (hp : l.Perm l') : others m l = others m l' := by
  funext p
  unfold others
  simp only [hp.mem_iff]

theorem Good.lt {m : Heap} {l : List Nat} (h : Good m l) {p : Nat} (hp : (m.blocks p).isSome) : p < m.next := by
  apply Classical.byContradiction
  intro hn
  rw [h.top p (by omega)] at hp
  cases hp

theorem alloc_good {m : Heap} {l : List Nat} (h : Good m l) (b : Bytes) :
    Good (alloc m b).2 ((alloc m b).1 :: l) ∧ others (alloc m b).2 ((alloc m b).1 :: l) = others m l ∧
    (alloc m b).2.blocks (alloc m b).1 = some b ∧ (∀ q, (m.blocks q).isSome → (alloc m b).2.blocks q = m.blocks q) ∧
    m.blocks (alloc m b).1 = none := by
  have hnext := h.top m.next (Nat.le_refl _)
  have hne : ∀ q, (m.blocks q).isSome → q ≠ m.next := fun q hq e => by have := h.lt hq; omega
  refine ⟨⟨?_, ?_, ?_⟩, ?_, ?_, ?_, hnext⟩
  · intro p hp
    show (if p = m.next then some b else m.blocks p) = none
    have hp : m.next + 1 ≤ p := hp
    rw [if_neg (by omega)]
    exact h.top p (by omega)
  · refine List.nodup_cons.2 ⟨fun hm => hne _ (h.live _ hm) rfl, h.nodup⟩
  · intro p hp
    show (if p = m.next then some b else m.blocks p).isSome
    split
    · rfl
    · rename_i hn
      rcases List.mem_cons.1 hp with rfl | hp
      · exact (hn rfl).elim
      · exact h.live p hp
  · funext p
    show (if p ∈ m.next :: l then none else if p = m.next then some b else m.blocks p) = if p ∈ l then none else m.blocks p
    by_cases e : p = m.next
    · subst e
      rw [if_pos (by simp), hnext]
      split <;> rfl
    · simp [e]
  · show (if m.next = m.next then some b else m.blocks m.next) = some b
    rw [if_pos rfl]
  · intro q hq
    show (if q = m.next then some b else m.blocks q) = _
    rw [if_neg (hne q hq)]

theorem free_good {m : Heap} {p : Nat} {l : List Nat} (h : Good m (p :: l)) :
    ∃ m', free m p = .ok m' ∧ Good m' l ∧ others m' l = others m (p :: l) ∧ (∀ q, q ≠ p → m'.blocks q = m.blocks q) := by
  obtain ⟨b, hb⟩ := Option.isSome_iff_exists.1 (h.live p (by simp))
  have hn := List.nodup_cons.1 h.nodup
  refine ⟨{ m with blocks := fun q => if q = p then none else m.blocks q }, by unfold free; rw [hb], ⟨?_, hn.2, ?_⟩, ?_, ?_⟩
  · intro q hq
    show (if q = p then none else m.blocks q) = none
    split
    · rfl
    · exact h.top q hq
  · intro q hq
    show (if q = p then none else m.blocks q).isSome
    rw [if_neg (fun e : q = p => hn.1 (e ▸ hq))]
    exact h.live q (by simp [hq])
  · funext q
    show (if q ∈ l then none else if q = p then none else m.blocks q) = if q ∈ p :: l then none else m.blocks q
    by_cases e : q = p
    · subst e; simp
    · simp [e]
  · intro q hq
    show (if q = p then none else m.blocks q) = _
    rw [if_neg hq]

theorem freeOpt_good {m : Heap} {o : Option Nat} {l : List Nat} (h : Good m (o.toList ++ l)) :
    ∃ m', freeOpt m o = .ok m' ∧ Good m' l ∧ others m' l = others m (o.toList ++ l) ∧ (∀ q, o ≠ some q → m'.blocks q = m.blocks q) := by
  cases o with
  | none => exact ⟨m, rfl, h, rfl, fun _ _ => rfl⟩
  | some p =>
    obtain ⟨m', h1, h2, h3, h4⟩ := free_good h
    exact ⟨m', h1, h2, h3, fun q hq => h4 q (fun e => hq (congrArg some e.symm))⟩

theorem strdupOpt_good {m : Heap} {l : List Nat} (h : Good m l) (val : Option Nat) (hv : ∀ p, val = some p → (m.blocks p).isSome) :
    ∃ v m', strdupOpt m val = .ok (v, m') ∧ Good m' (v.toList ++ l) ∧ others m' (v.toList ++ l) = others m l ∧
      v.bind m'.blocks = val.bind m.blocks ∧ (∀ q, (m.blocks q).isSome → m'.blocks q = m.blocks q) ∧
      (∀ q, v = some q → m.blocks q = none) ∧ (v = none ↔ val = none) := by
  cases val with
  | none => exact ⟨none, m, rfl, h, rfl, rfl, fun _ _ => rfl, fun _ e => (by cases e), Iff.rfl⟩
  | some p =>
    obtain ⟨b, hb⟩ := Option.isSome_iff_exists.1 (hv p rfl)
    obtain ⟨h1, h2, h3, h4, h5⟩ := alloc_good h b
    refine ⟨some (alloc m b).1, (alloc m b).2, ?_, h1, h2, ?_, h4, ?_, by simp⟩
    · unfold strdupOpt load
      simp only [hb, Outcome.ok_bind, Outcome.pure_eq]
    · show (alloc m b).2.blocks (alloc m b).1 = m.blocks p
      rw [h3, hb]
    · intro q hq
      injection hq with hq
      rw [← hq]
      exact h5

/-! ### What a dictionary owns, and its contents -/

/-- The blocks of the strings of positions. -/
def strings (l : List Slot) : List Nat := l.flatMap fun s => s.key.toList ++ s.val.toList

/-- The blocks of a dictionary. -/
def owned (d : Dict) : List Nat := [d.vals, d.keys, d.hashes, d.self] ++ strings d.slots

/-- The contents of a position. -/
def slotOf (m : Heap) (s : Slot) : Ini.Slot := ⟨s.key.bind m.blocks, s.val.bind m.blocks, s.hash⟩

/-- The contents of a dictionary. -/
def contents (m : Heap) (d : Dict) : Ini.Dict := ⟨d.n, d.slots.map (slotOf m)⟩

/-- The pointers of positions are to blocks in use. -/
def Live (m : Heap) (l : List Slot) : Prop := ∀ p ∈ strings l, (m.blocks p).isSome

theorem Live.cons {m : Heap} {s : Slot} {l : List Slot} (h : Live m (s :: l)) : Live m l := by
  intro p hp
  exact h p (by unfold strings at *; rw [List.flatMap_cons]; exact List.mem_append_right _ hp)

theorem Live.key {m : Heap} {s : Slot} {l : List Slot} (h : Live m (s :: l)) {p : Nat} (hp : s.key = some p) : ∃ b, m.blocks p = some b :=
  Option.isSome_iff_exists.1 (h p (by unfold strings; rw [List.flatMap_cons, hp]; simp))

theorem findKey_contents (m : Heap) (h : UInt32) (key : Bytes) : ∀ (l : List Slot), Live m l →
    findKey m h key l = .ok (Ini.findKey h key (l.map (slotOf m)))
  | [], _ => rfl
  | s :: ss, hl => by
    have ih := findKey_contents m h key ss hl.cons
    rw [List.map_cons, findKey, Ini.findKey]
    cases hk : s.key with
    | none =>
      have : (slotOf m s).key = none := by unfold slotOf; rw [hk]; rfl
      simp only [this, ih, Outcome.ok_bind, Outcome.pure_eq]
    | some p =>
      obtain ⟨b, hb⟩ := hl.key hk
      have : (slotOf m s).key = some b := by unfold slotOf; rw [hk]; exact hb
      have hh : (slotOf m s).hash = s.hash := rfl
      simp only [this, hh, ih, load, hb, Outcome.ok_bind, Outcome.pure_eq]
      by_cases h1 : h = s.hash
      · by_cases h2 : key = b
        · simp [h1, h2]
        · simp [h1, h2]
      · simp [h1]

theorem firstFree_contents (m : Heap) : ∀ (l : List Slot), Live m l → firstFree l = Ini.firstFree (l.map (slotOf m))
  | [], _ => rfl
  | s :: ss, hl => by
    have ih := firstFree_contents m ss hl.cons
    rw [List.map_cons, firstFree, Ini.firstFree]
    cases hk : s.key with
    | none =>
      have : (slotOf m s).key = none := by unfold slotOf; rw [hk]; rfl
      simp only [this]
    | some p =>
      obtain ⟨b, hb⟩ := hl.key hk
      have : (slotOf m s).key = some b := by unfold slotOf; rw [hk]; exact hb
      simp only [this, ih]

/-- The contents of what was found. -/
def foundOf (m : Heap) : Found → Ini.Found
  | .default => .default
  | .value p => .value (p.bind m.blocks)

theorem getLoop_contents (m : Heap) (h : UInt32) (key : Bytes) : ∀ (l : List Slot), Live m l →
    ∀ r, Ini.getLoop h key (l.map (slotOf m)) = .ok r → ∃ r', getLoop m h key l = .ok r' ∧ foundOf m r' = r ∧
      (∀ v, r' = .value v → ∃ (i : Nat) (s : Slot), l[i]? = some s ∧ s.key.bind m.blocks = some key ∧ s.val = v)
  | [], _, r, e => ⟨.default, rfl, by injection e, fun v hv => by cases hv⟩
  | s :: ss, hl, r, e => by
    have ih := getLoop_contents m h key ss hl.cons
    have step : ∀ r', (∀ v, r' = Found.value v → ∃ (i : Nat) (t : Slot), ss[i]? = some t ∧ t.key.bind m.blocks = some key ∧ t.val = v) →
        ∀ v, r' = Found.value v → ∃ (i : Nat) (t : Slot), (s :: ss)[i]? = some t ∧ t.key.bind m.blocks = some key ∧ t.val = v := by
      intro r' h v hv
      obtain ⟨i, t, h1, h2⟩ := h v hv
      exact ⟨i + 1, t, by simpa using h1, h2⟩
    rw [List.map_cons, Ini.getLoop] at e
    rw [getLoop]
    have hh : (slotOf m s).hash = s.hash := rfl
    rw [hh] at e
    by_cases h1 : h = s.hash
    · rw [if_pos h1] at e ⊢
      cases hk : s.key with
      | none =>
        have : (slotOf m s).key = none := by unfold slotOf; rw [hk]; rfl
        simp only [this] at e
        cases e
      | some p =>
        obtain ⟨b, hb⟩ := hl.key hk
        have : (slotOf m s).key = some b := by unfold slotOf; rw [hk]; exact hb
        simp only [this] at e
        simp only [load, hb, Outcome.ok_bind]
        by_cases h2 : key = b
        · rw [if_pos h2] at e ⊢
          injection e with e
          refine ⟨_, rfl, e, ?_⟩
          intro v hv
          injection hv with hv
          exact ⟨0, s, rfl, by rw [hk, h2]; exact hb, hv⟩
        · rw [if_neg h2] at e ⊢
          obtain ⟨r', g1, g2, g3⟩ := ih r e
          exact ⟨r', g1, g2, step r' g3⟩
    · rw [if_neg h1] at e ⊢
      obtain ⟨r', g1, g2, g3⟩ := ih r e
      exact ⟨r', g1, g2, step r' g3⟩

theorem slots_congr {m m' : Heap} {l : List Slot} (h : ∀ q ∈ strings l, m'.blocks q = m.blocks q) : l.map (slotOf m') = l.map (slotOf m) := by
  apply List.map_congr_left
  intro s hs
  have hq : ∀ q ∈ s.key.toList ++ s.val.toList, m'.blocks q = m.blocks q := fun q hq => h q (List.mem_flatMap.2 ⟨s, hs, hq⟩)
  unfold slotOf
  congr 1
  · cases hk : s.key with
    | none => rfl
    | some p => exact hq p (by simp [hk])
  · cases hk : s.val with
    | none => rfl
    | some p => exact hq p (by simp [hk])

theorem split_at {α} {l : List α} {i : Nat} {s : α} (h : l[i]? = some s) : ∃ a b, l = a ++ s :: b ∧ a.length = i := by
  obtain ⟨hi, rfl⟩ := List.getElem?_eq_some_iff.1 h
  refine ⟨l.take i, l.drop (i + 1), ?_, by simp; omega⟩
  rw [← List.drop_eq_getElem_cons hi, List.take_append_drop]

theorem set_split {α} (a b : List α) (s t : α) : (a ++ s :: b).set a.length t = a ++ t :: b := by
  rw [List.set_append_right _ _ (Nat.le_refl _)]
  simp

theorem strings_split (a b : List Slot) (s : Slot) : strings (a ++ s :: b) = strings a ++ ((s.key.toList ++ s.val.toList) ++ strings b) := by
  unfold strings
  rw [List.flatMap_append, List.flatMap_cons]

/-- The pointer `p` is the value of key `k`, and holds `v`. -/
def Holds (m : Heap) (d : Dict) (k : Bytes) (p : Nat) (v : Bytes) : Prop :=
  ∃ (s : Slot) (kp : Nat), s ∈ d.slots ∧ s.key = some kp ∧ m.blocks kp = some k ∧ s.val = some p ∧ m.blocks p = some v

theorem mem_strings {l : List Slot} {s : Slot} (hs : s ∈ l) {p : Nat} (hp : s.key = some p ∨ s.val = some p) : p ∈ strings l := by
  refine List.mem_flatMap.2 ⟨s, hs, ?_⟩
  rcases hp with hp | hp <;> simp [hp]

/-- Changing one position keeps the others. -/
theorem holds_split {m m' : Heap} {d d' : Dict} {a b : List Slot} {s t : Slot} (hd : d.slots = a ++ s :: b) (hd' : d'.slots = a ++ t :: b)
    (ha : ∀ q ∈ strings a, m'.blocks q = m.blocks q) (hb : ∀ q ∈ strings b, m'.blocks q = m.blocks q) {k : Bytes}
    (hk : s.key.bind m.blocks ≠ some k) {p : Nat} {v : Bytes} (h : Holds m d k p v) : Holds m' d' k p v := by
  obtain ⟨x, kp, h1, h2, h3, h4, h5⟩ := h
  rw [hd] at h1
  have hx : x ∈ a ∨ x ∈ b := by
    rcases List.mem_append.1 h1 with h1 | h1
    · exact .inl h1
    · rcases List.mem_cons.1 h1 with rfl | h1
      · exact (hk (by rw [h2]; exact h3)).elim
      · exact .inr h1
  have hsame : ∀ q, x.key = some q ∨ x.val = some q → m'.blocks q = m.blocks q := by
    intro q hq
    rcases hx with hx | hx
    · exact ha q (mem_strings hx hq)
    · exact hb q (mem_strings hx hq)
  refine ⟨x, kp, ?_, h2, by rw [hsame kp (.inl h2), h3], h4, by rw [hsame p (.inr h4), h5]⟩
  rw [hd']
  rcases hx with hx | hx <;> simp [hx]

theorem slots_split {m m' : Heap} {a b : List Slot} {s t : Slot} (ha : ∀ q ∈ strings a, m'.blocks q = m.blocks q)
    (hb : ∀ q ∈ strings b, m'.blocks q = m.blocks q) :
    (a ++ t :: b).map (slotOf m') = ((a ++ s :: b).map (slotOf m)).set a.length (slotOf m' t) := by
  rw [List.map_append, List.map_cons, slots_congr ha, slots_congr hb, List.map_append, List.map_cons]
  have := set_split (a.map (slotOf m)) (b.map (slotOf m)) (slotOf m s) (slotOf m' t)
  rw [List.length_map] at this
  rw [this]

/-- The value can be read when the dictionary copies it: it is in use, it is not an array of the dictionary, and it is not the value that the
key has now. -/
def Readable (m : Heap) (d : Dict) (key : Bytes) (val : Option Nat) : Prop :=
  ∀ p, val = some p → (m.blocks p).isSome ∧ p ∉ [d.vals, d.keys, d.hashes, d.self] ∧
    ∀ s ∈ d.slots, s.key.bind m.blocks = some key → s.val ≠ some p

/-- What every operation on a key gives. -/
structure Done (m : Heap) (d : Dict) (key : Bytes) (m' : Heap) (d' : Dict) : Prop where
  good : Good m' (owned d')
  rest : others m' (owned d') = others m (owned d)
  keep : ∀ k p v, k ≠ key → Holds m d k p v → Holds m' d' k p v

theorem replace_done {m : Heap} {d : Dict} (hg : Good m (owned d)) {key : Bytes} {i : Nat} {s : Slot} (hi : d.slots[i]? = some s)
    (hk : s.key.bind m.blocks = some key) {val : Option Nat} (hv : Readable m d key val) :
    ∃ m' d', replace m d i val = .ok (m', d') ∧ Done m d key m' d' ∧
      contents m' d' = ⟨d.n, (d.slots.map (slotOf m)).set i { slotOf m s with val := val.bind m.blocks }⟩ ∧ d'.slots.length = d.slots.length := by
  obtain ⟨a, b, hd, ha⟩ := split_at hi
  obtain ⟨self, vals, keys, hashes, n, slots⟩ := d
  simp only at hd hi
  subst hd
  -- what stays
  let R : List Nat := [vals, keys, hashes, self] ++ (strings a ++ (s.key.toList ++ strings b))
  have hp : (owned ⟨self, vals, keys, hashes, n, a ++ s :: b⟩).Perm (s.val.toList ++ R) := by
    refine List.perm_iff_count.2 fun x => ?_
    show List.count x ([vals, keys, hashes, self] ++ strings (a ++ s :: b)) = _
    rw [strings_split]
    simp only [R, List.count_append]
    omega
  obtain ⟨m1, e1, g1, o1, k1⟩ := freeOpt_good (hg.perm hp)
  have hR1 : ∀ q ∈ R, m1.blocks q = m.blocks q := by
    intro q hq
    refine k1 q fun e => ?_
    have hn := (hg.perm hp).nodup
    rw [e] at hn
    exact (List.nodup_cons.1 hn).1 hq
  have hval : ∀ p, val = some p → m1.blocks p = m.blocks p := fun p hp =>
    k1 p ((hv p hp).2.2 s (by simp) hk)
  obtain ⟨v, m2, e2, g2, o2, c2, k2, _, _⟩ := strdupOpt_good g1 val (fun p hp => by rw [hval p hp]; exact (hv p hp).1)
  have hR : ∀ q ∈ R, m2.blocks q = m.blocks q := by
    intro q hq
    rw [k2 q (g1.live q hq), hR1 q hq]
  have hp2 : (v.toList ++ R).Perm (owned ⟨self, vals, keys, hashes, n, a ++ { s with val := v } :: b⟩) := by
    refine List.perm_iff_count.2 fun x => ?_
    show _ = List.count x ([vals, keys, hashes, self] ++ strings (a ++ { s with val := v } :: b))
    rw [strings_split]
    simp only [R, List.count_append]
    omega
  have hA : ∀ q ∈ strings a, m2.blocks q = m.blocks q := fun q hq => hR q (by simp [R, hq])
  have hB : ∀ q ∈ strings b, m2.blocks q = m.blocks q := fun q hq => hR q (by simp [R, hq])
  refine ⟨m2, ⟨self, vals, keys, hashes, n, a ++ { s with val := v } :: b⟩, ?_, ⟨g2.perm hp2, ?_, ?_⟩, ?_, ?_⟩
  · unfold replace
    simp only [hi]
    rw [e1, Outcome.ok_bind, e2, Outcome.ok_bind, ← ha, set_split]
    rfl
  · rw [← others_perm hp2, o2, o1, others_perm hp]
  · intro k p w hne hh
    refine holds_split rfl rfl hA hB ?_ hh
    rw [hk]
    intro e
    injection e with e
    exact hne e.symm
  · unfold contents
    dsimp only
    rw [slots_split (s := s) hA hB, ha]
    congr 2
    unfold slotOf
    dsimp only
    congr 1
    · cases hks : s.key with
      | none => rfl
      | some q => exact hR q (by simp [R, hks])
    · rw [c2]
      cases val with
      | none => rfl
      | some p => exact hval p rfl
  · simp

theorem remove_done {m : Heap} {d : Dict} (hg : Good m (owned d)) {key : Bytes} {i : Nat} {s : Slot} (hi : d.slots[i]? = some s)
    (hk : s.key.bind m.blocks = some key) :
    ∃ m' d', remove m d i = .ok (m', d') ∧ Done m d key m' d' ∧
      contents m' d' = ⟨d.n - 1, (d.slots.map (slotOf m)).set i Ini.Slot.zero⟩ := by
  obtain ⟨a, b, hd, ha⟩ := split_at hi
  obtain ⟨self, vals, keys, hashes, n, slots⟩ := d
  simp only at hd hi
  subst hd
  let R : List Nat := [vals, keys, hashes, self] ++ (strings a ++ strings b)
  have hp : (owned ⟨self, vals, keys, hashes, n, a ++ s :: b⟩).Perm (s.key.toList ++ (s.val.toList ++ R)) := by
    refine List.perm_iff_count.2 fun x => ?_
    show List.count x ([vals, keys, hashes, self] ++ strings (a ++ s :: b)) = _
    rw [strings_split]
    simp only [R, List.count_append]
    omega
  obtain ⟨m1, e1, g1, o1, k1⟩ := freeOpt_good (hg.perm hp)
  obtain ⟨m2, e2, g2, o2, k2⟩ := freeOpt_good g1
  have hn := (hg.perm hp).nodup
  have hR : ∀ q ∈ R, m2.blocks q = m.blocks q := by
    intro q hq
    rw [k2 q, k1 q]
    · intro e
      rw [e] at hn
      exact (List.nodup_cons.1 hn).1 (List.mem_append_right s.val.toList hq)
    · intro e
      have hn := g1.nodup
      rw [e] at hn
      exact (List.nodup_cons.1 hn).1 hq
  have hp2 : R.Perm (owned ⟨self, vals, keys, hashes, n - 1, a ++ Slot.zero :: b⟩) := by
    refine List.perm_iff_count.2 fun x => ?_
    show _ = List.count x ([vals, keys, hashes, self] ++ strings (a ++ Slot.zero :: b))
    rw [strings_split]
    simp [R, Slot.zero]
  have hA : ∀ q ∈ strings a, m2.blocks q = m.blocks q := fun q hq => hR q (by simp [R, hq])
  have hB : ∀ q ∈ strings b, m2.blocks q = m.blocks q := fun q hq => hR q (by simp [R, hq])
  refine ⟨m2, ⟨self, vals, keys, hashes, n - 1, a ++ Slot.zero :: b⟩, ?_, ⟨g2.perm hp2, ?_, ?_⟩, ?_⟩
  · unfold remove
    simp only [hi]
    rw [e1, Outcome.ok_bind, e2, Outcome.ok_bind, ← ha, set_split]
    rfl
  · rw [← others_perm hp2, o2, o1, others_perm hp]
  · intro k p w hne hh
    refine holds_split rfl rfl hA hB ?_ hh
    rw [hk]
    intro e
    injection e with e
    exact hne e.symm
  · unfold contents
    dsimp only
    rw [slots_split (s := s) hA hB, ha]
    rfl

theorem memDouble_good {m : Heap} {p : Nat} {l : List Nat} (h : Good m (p :: l)) :
    ∃ q m', memDouble m p = .ok (q, m') ∧ Good m' (q :: l) ∧ others m' (q :: l) = others m (p :: l) ∧
      (∀ x, x ≠ p → (m.blocks x).isSome → m'.blocks x = m.blocks x) := by
  obtain ⟨a1, a2, a3, a4, a5⟩ := alloc_good h []
  have hp : ((alloc m []).1 :: p :: l).Perm (p :: (alloc m []).1 :: l) := List.Perm.swap ..
  obtain ⟨m', f1, f2, f3, f4⟩ := free_good (a1.perm hp)
  refine ⟨(alloc m []).1, m', ?_, f2, ?_, ?_⟩
  · unfold memDouble
    obtain ⟨b, hb⟩ := Option.isSome_iff_exists.1 (h.live p (by simp))
    have hl : load (alloc m []).2 p = .ok b := by
      unfold load
      rw [a4 p (by rw [hb]; rfl), hb]
    simp only [hl, Outcome.ok_bind, f1]
    rfl
  · rw [f3, ← others_perm hp, a2]
  · intro x hx hl
    rw [f4 x hx, a4 x hl]

theorem strings_zero (n : Nat) : strings (List.replicate n Slot.zero) = [] := by
  unfold strings
  rw [List.flatMap_eq_nil_iff]
  intro s hs
  rw [List.eq_of_mem_replicate hs]
  rfl

theorem grow_good {m : Heap} {d : Dict} (hg : Good m (owned d)) :
    ∃ m' d', grow m d = .ok (m', d') ∧ Good m' (owned d') ∧ others m' (owned d') = others m (owned d) ∧
      d'.slots = (if d.n = d.slots.length then d.slots ++ List.replicate d.slots.length Slot.zero else d.slots) ∧ d'.n = d.n ∧
      (∀ x, x ∉ [d.vals, d.keys, d.hashes, d.self] → (m.blocks x).isSome → m'.blocks x = m.blocks x) := by
  unfold grow
  by_cases h : d.n = d.slots.length
  · rw [if_pos h, if_pos h]
    obtain ⟨self, vals, keys, hashes, n, slots⟩ := d
    obtain ⟨q1, m1, e1, g1, o1, k1⟩ := memDouble_good (p := vals) (l := keys :: hashes :: self :: strings slots) hg
    have p1 : (q1 :: keys :: hashes :: self :: strings slots).Perm (keys :: q1 :: hashes :: self :: strings slots) := List.Perm.swap ..
    obtain ⟨q2, m2, e2, g2, o2, k2⟩ := memDouble_good (g1.perm p1)
    have p2 : (q2 :: q1 :: hashes :: self :: strings slots).Perm (hashes :: q1 :: q2 :: self :: strings slots) := by
      refine List.perm_iff_count.2 fun x => ?_
      simp only [List.count_cons]
      omega
    obtain ⟨q3, m3, e3, g3, o3, k3⟩ := memDouble_good (g2.perm p2)
    have p3 : (q3 :: q1 :: q2 :: self :: strings slots).Perm
        (owned ⟨self, q1, q2, q3, n, slots ++ List.replicate slots.length Slot.zero⟩) := by
      refine List.perm_iff_count.2 fun x => ?_
      have hz : strings (slots ++ List.replicate slots.length Slot.zero) = strings slots := by
        show List.flatMap _ _ = _
        rw [List.flatMap_append]
        have := strings_zero slots.length
        unfold strings at this ⊢
        rw [this, List.append_nil]
      show _ = List.count x (q1 :: q2 :: q3 :: self :: strings (slots ++ List.replicate slots.length Slot.zero))
      rw [hz]
      simp only [List.count_cons]
      omega
    refine ⟨m3, ⟨self, q1, q2, q3, n, slots ++ List.replicate slots.length Slot.zero⟩, ?_, g3.perm p3, ?_, rfl, rfl, ?_⟩
    · dsimp only
      rw [e1, Outcome.ok_bind]
      dsimp only
      rw [e2, Outcome.ok_bind]
      dsimp only
      rw [e3, Outcome.ok_bind]
      rfl
    · rw [← others_perm p3, o3, ← others_perm p2, o2, ← others_perm p1, o1]
      rfl
    · intro x hx hl
      simp only [List.mem_cons, List.not_mem_nil, or_false, not_or] at hx
      have h1 := k1 x hx.1 hl
      have h2 := k2 x hx.2.1 (by rw [h1]; exact hl)
      have h3 := k3 x hx.2.2.1 (by rw [h2, h1]; exact hl)
      rw [h3, h2, h1]
  · rw [if_neg h, if_neg h]
    exact ⟨m, d, rfl, hg, rfl, rfl, rfl, fun _ _ _ => rfl⟩

theorem firstFree_at : ∀ {l : List Slot} {i : Nat}, firstFree l = some i → ∃ s, l[i]? = some s ∧ s.key = none
  | [], i, h => by cases h
  | s :: ss, i, h => by
    rw [firstFree] at h
    cases hk : s.key with
    | none =>
      rw [hk] at h
      injection h with h
      exact ⟨s, by rw [← h]; rfl, hk⟩
    | some p =>
      rw [hk] at h
      cases hf : firstFree ss with
      | none => rw [hf] at h; cases h
      | some j =>
        rw [hf] at h
        injection h with h
        obtain ⟨t, h1, h2⟩ := firstFree_at hf
        exact ⟨t, by rw [← h]; simpa using h1, h2⟩

theorem Good.liveSlots {m : Heap} {d : Dict} (h : Good m (owned d)) : Live m d.slots :=
  fun p hp => h.live p (List.mem_append_right _ hp)

theorem insert_done {m : Heap} {d : Dict} (hg : Good m (owned d)) (hz : ∀ s ∈ d.slots, s.key = none → s.val = none) {h : UInt32}
    {key : Bytes} {val : Option Nat} (hv : ∀ p, val = some p → (m.blocks p).isSome ∧ p ∉ [d.vals, d.keys, d.hashes, d.self])
    {D : Ini.Dict} (he : Ini.insert (contents m d) h key (val.bind m.blocks) = .ok D) :
    ∃ m' d', insert m d h key val = .ok (m', d') ∧ Done m d key m' d' ∧ contents m' d' = D := by
  obtain ⟨m1, d1, e1, g1, o1, s1, n1, k1⟩ := grow_good hg
  -- the strings are not touched by growing
  have hstr : strings d1.slots = strings d.slots := by
    rw [s1]
    split
    · show List.flatMap _ _ = _
      rw [List.flatMap_append]
      have := strings_zero d.slots.length
      unfold strings at this ⊢
      rw [this, List.append_nil]
    · rfl
  have hnot : ∀ q ∈ strings d.slots, q ∉ [d.vals, d.keys, d.hashes, d.self] := by
    intro q hq hm
    have := hg.nodup
    unfold owned at this
    exact (List.nodup_append.1 this).2.2 q hm q hq rfl
  have hsame1 : ∀ q ∈ strings d.slots, m1.blocks q = m.blocks q := fun q hq => k1 q (hnot q hq) (hg.liveSlots q hq)
  have hslots1 : d1.slots.map (slotOf m1) =
      (if d.n = d.slots.length then d.slots.map (slotOf m) ++ List.replicate d.slots.length Ini.Slot.zero else d.slots.map (slotOf m)) := by
    rw [slots_congr (m := m) (by rw [hstr]; exact hsame1), s1]
    split
    · rw [List.map_append, List.map_replicate]
      rfl
    · rfl
  have hz1 : ∀ s ∈ d1.slots, s.key = none → s.val = none := by
    intro s hs hk
    rw [s1] at hs
    split at hs
    · rcases List.mem_append.1 hs with hs | hs
      · exact hz s hs hk
      · rw [List.eq_of_mem_replicate hs]; rfl
    · exact hz s hs hk
  -- the position
  simp only [Ini.insert, contents, List.length_map] at he
  rw [← hslots1, ← firstFree_contents m1 d1.slots g1.liveSlots] at he
  cases hf : firstFree d1.slots with
  | none => rw [hf] at he; cases he
  | some i =>
    rw [hf] at he
    injection he with he
    obtain ⟨s, hi, hk⟩ := firstFree_at hf
    have hsv := hz1 s (List.mem_of_getElem? hi) hk
    obtain ⟨a, b, hd, ha⟩ := split_at hi
    obtain ⟨a1, a2, a3, a4, a5⟩ := alloc_good g1 key
    have hval : ∀ p, val = some p → (m1.blocks p).isSome ∧ m1.blocks p = m.blocks p := by
      intro p hp
      have := k1 p (hv p hp).2 (hv p hp).1
      exact ⟨by rw [this]; exact (hv p hp).1, this⟩
    obtain ⟨v, m3, e3, g3, o3, c3, k3, f3, _⟩ := strdupOpt_good a1 val (fun p hp => by rw [a4 p (hval p hp).1]; exact (hval p hp).1)
    have hkeep : ∀ q, (m1.blocks q).isSome → m3.blocks q = m1.blocks q := by
      intro q hq
      rw [k3 q (by rw [a4 q hq]; exact hq), a4 q hq]
    have hstr1 : strings d1.slots = strings a ++ strings b := by
      rw [hd, strings_split, hk, hsv]
      rfl
    have hA : ∀ q ∈ strings a, m3.blocks q = m1.blocks q := fun q hq =>
      hkeep q (g1.liveSlots q (by rw [hstr1]; exact List.mem_append_left _ hq))
    have hB : ∀ q ∈ strings b, m3.blocks q = m1.blocks q := fun q hq =>
      hkeep q (g1.liveSlots q (by rw [hstr1]; exact List.mem_append_right _ hq))
    let t : Slot := ⟨some (alloc m1 key).1, v, h⟩
    let d3 : Dict := { d1 with n := d1.n + 1, slots := a ++ t :: b }
    have hp : (v.toList ++ (alloc m1 key).1 :: owned d1).Perm (owned d3) := by
      refine List.perm_iff_count.2 fun x => ?_
      show List.count x (v.toList ++ (alloc m1 key).1 :: ([d1.vals, d1.keys, d1.hashes, d1.self] ++ strings d1.slots)) =
        List.count x ([d1.vals, d1.keys, d1.hashes, d1.self] ++ strings (a ++ t :: b))
      rw [hstr1, strings_split]
      show _ = List.count x ([d1.vals, d1.keys, d1.hashes, d1.self] ++ (strings a ++ (([(alloc m1 key).1] ++ v.toList) ++ strings b)))
      have hc : ∀ l : List Nat, List.count x ((alloc m1 key).1 :: l) = List.count x [(alloc m1 key).1] + List.count x l := by
        intro l
        rw [← List.count_append]
        rfl
      rw [List.count_append, hc]
      simp only [List.count_append]
      omega
    refine ⟨m3, d3, ?_, ⟨g3.perm hp, ?_, ?_⟩, ?_⟩
    · unfold insert
      rw [e1, Outcome.ok_bind]
      dsimp only
      rw [hf]
      dsimp only
      rw [e3, Outcome.ok_bind]
      dsimp only
      rw [hd, ← ha, set_split]
      rfl
    · rw [← others_perm hp, o3, a2, o1]
    · intro k p w hne hh
      have h1 : Holds m1 d1 k p w := by
        obtain ⟨x, kp, y1, y2, y3, y4, y5⟩ := hh
        refine ⟨x, kp, ?_, y2, ?_, y4, ?_⟩
        · rw [s1]
          split
          · exact List.mem_append_left _ y1
          · exact y1
        · rw [hsame1 kp (mem_strings y1 (.inl y2)), y3]
        · rw [hsame1 p (mem_strings y1 (.inr y4)), y5]
      exact holds_split hd rfl hA hB (by rw [hk]; simp) h1
    · rw [← he]
      unfold contents
      dsimp only [d3]
      rw [n1, slots_split (s := s) hA hB, ← hd, ha]
      congr 2
      unfold slotOf
      dsimp only [t]
      congr 1
      · show m3.blocks _ = _
        rw [k3 _ (by rw [a3]; rfl), a3]
      · rw [c3]
        cases hvp : val with
        | none => rfl
        | some p =>
          show (alloc m1 key).2.blocks p = m.blocks p
          rw [a4 p (hval p hvp).1, (hval p hvp).2]

/-- Positions without key have no value. -/
theorem zero_of_inv {m : Heap} {d : Dict} (hg : Good m (owned d)) {hist : List IniSpec.Op} (hi : Ini.Inv (contents m d) hist) :
    ∀ s ∈ d.slots, s.key = none → s.val = none := by
  intro s hs hk
  obtain ⟨i, hi'⟩ := List.getElem?_of_mem hs
  have h0 := hi.h0 i (slotOf m s) (by unfold contents; simp [hi']) (by unfold slotOf; rw [hk]; rfl)
  cases hv : s.val with
  | none => rfl
  | some p =>
    exfalso
    have h1 := congrArg Ini.Slot.val h0
    have h2 : m.blocks p = none := by
      have : (slotOf m s).val = m.blocks p := by unfold slotOf; rw [hv]; rfl
      rw [← this, h1]
      rfl
    have := hg.liveSlots p (mem_strings hs (.inr hv))
    rw [h2] at this
    cases this

theorem set_done {m : Heap} {d : Dict} (hg : Good m (owned d)) {hist : List IniSpec.Op} (hi : Ini.Inv (contents m d) hist) {key : Bytes}
    {val : Option Nat} (hv : Readable m d key val) :
    ∃ m' d', set m d key val = .ok (m', d') ∧ Done m d key m' d' ∧ Ini.set (contents m d) key (val.bind m.blocks) = .ok (contents m' d') := by
  obtain ⟨D, hD, _⟩ := Ini.inv_set hi key (val.bind m.blocks)
  have hD' := hD
  unfold Ini.set at hD'
  dsimp only at hD'
  have hf : present m d key =
      .ok (if (contents m d).n > 0 then Ini.findKey (Ini.hash key) key (contents m d).slots else none) := by
    show (if d.n > 0 then findKey m (Ini.hash key) key d.slots else .ok none) =
      .ok (if d.n > 0 then Ini.findKey (Ini.hash key) key (d.slots.map (slotOf m)) else none)
    split
    · exact findKey_contents m _ key d.slots hg.liveSlots
    · rfl
  unfold set
  rw [hf, Outcome.ok_bind]
  cases hk : (if (contents m d).n > 0 then Ini.findKey (Ini.hash key) key (contents m d).slots else none) with
  | none =>
    rw [hk] at hD'
    obtain ⟨m', d', h1, h2, h3⟩ := insert_done hg (zero_of_inv hg hi) (fun p hp => ⟨(hv p hp).1, (hv p hp).2.1⟩) hD'
    exact ⟨m', d', h1, h2, by rw [hD, h3]⟩
  | some i =>
    rw [hk] at hD'
    have hfk : Ini.findKey (Ini.hash key) key (contents m d).slots = some i := by
      split at hk
      · exact hk
      · cases hk
    obtain ⟨S, hS, hkey⟩ := Ini.findKey_some hfk
    have hS' : (d.slots.map (slotOf m))[i]? = some S := hS
    rw [List.getElem?_map] at hS'
    cases hs : d.slots[i]? with
    | none => rw [hs] at hS'; cases hS'
    | some s =>
      rw [hs] at hS'
      have hS' : slotOf m s = S := Option.some.inj hS'
      have hbind : s.key.bind m.blocks = some key := by
        have : (slotOf m s).key = s.key.bind m.blocks := rfl
        rw [← this, hS', hkey]
      obtain ⟨m', d', h1, h2, h3, _⟩ := replace_done hg hs hbind hv
      refine ⟨m', d', h1, h2, ?_⟩
      rw [h3, hS', hD]
      dsimp only at hD'
      rw [hS] at hD'
      exact hD'.symm ▸ rfl

theorem unset_done {m : Heap} {d : Dict} (hg : Good m (owned d)) (key : Bytes) :
    ∃ m' d', unset m d key = .ok (m', d') ∧ Done m d key m' d' ∧ Ini.unset (contents m d) key = contents m' d' := by
  unfold unset
  rw [findKey_contents m _ key d.slots hg.liveSlots, Outcome.ok_bind]
  unfold Ini.unset
  show ∃ m' d', _ ∧ _ ∧ (match Ini.findKey (Ini.hash key) key (d.slots.map (slotOf m)) with
    | none => contents m d
    | some i => (⟨(contents m d).n - 1, (contents m d).slots.set i Ini.Slot.zero⟩ : Ini.Dict)) = _
  cases hk : Ini.findKey (Ini.hash key) key (d.slots.map (slotOf m)) with
  | none => exact ⟨m, d, rfl, ⟨hg, rfl, fun _ _ _ _ h => h⟩, rfl⟩
  | some i =>
    obtain ⟨S, hS, hkey⟩ := Ini.findKey_some hk
    have hS' := hS
    rw [List.getElem?_map] at hS'
    cases hs : d.slots[i]? with
    | none => rw [hs] at hS'; cases hS'
    | some s =>
      rw [hs] at hS'
      have hS' : slotOf m s = S := Option.some.inj hS'
      have hbind : s.key.bind m.blocks = some key := by
        have : (slotOf m s).key = s.key.bind m.blocks := rfl
        rw [← this, hS', hkey]
      obtain ⟨m', d', h1, h2, h3⟩ := remove_done hg hs hbind
      exact ⟨m', d', h1, h2, h3.symm⟩

theorem freeSlots_good : ∀ {l : List Slot} {m : Heap} {r : List Nat}, Good m (strings l ++ r) →
    ∃ m', freeSlots m l = .ok m' ∧ Good m' r ∧ others m' r = others m (strings l ++ r)
  | [], m, r, h => ⟨m, rfl, h, rfl⟩
  | s :: ss, m, r, h => by
    have he : strings (s :: ss) ++ r = s.key.toList ++ (s.val.toList ++ (strings ss ++ r)) := by
      unfold strings
      rw [List.flatMap_cons]
      simp
    rw [he] at h ⊢
    obtain ⟨m1, e1, g1, o1, _⟩ := freeOpt_good h
    obtain ⟨m2, e2, g2, o2, _⟩ := freeOpt_good g1
    obtain ⟨m3, e3, g3, o3⟩ := freeSlots_good g2
    refine ⟨m3, ?_, g3, by rw [o3, o2, o1]⟩
    rw [freeSlots, e1, Outcome.ok_bind, e2, Outcome.ok_bind, e3]

theorem del_good {m : Heap} {d : Dict} (hg : Good m (owned d)) :
    ∃ m', del m d = .ok m' ∧ Good m' [] ∧ m'.blocks = others m (owned d) := by
  have hp : (owned d).Perm (strings d.slots ++ [d.vals, d.keys, d.hashes, d.self]) := List.perm_append_comm
  obtain ⟨m1, e1, g1, o1⟩ := freeSlots_good (hg.perm hp)
  obtain ⟨m2, e2, g2, o2, _⟩ := free_good g1
  obtain ⟨m3, e3, g3, o3, _⟩ := free_good g2
  obtain ⟨m4, e4, g4, o4, _⟩ := free_good g3
  obtain ⟨m5, e5, g5, o5, _⟩ := free_good g4
  refine ⟨m5, ?_, g5, ?_⟩
  · unfold del
    rw [e1, Outcome.ok_bind, e2, Outcome.ok_bind, e3, Outcome.ok_bind, e4, Outcome.ok_bind, e5]
  · have : m5.blocks = others m5 [] := by funext p; simp [others]
    rw [this, o5, o4, o3, o2, o1, others_perm hp]

theorem new_good {m : Heap} (hm : ∀ p, m.next ≤ p → m.blocks p = none) (size : Nat) :
    Good (new m size).1 (owned (new m size).2) ∧ others (new m size).1 (owned (new m size).2) = m.blocks ∧
    contents (new m size).1 (new m size).2 = Ini.newDict size := by
  have g0 : Good m [] := ⟨hm, List.nodup_nil, fun p hp => by cases hp⟩
  obtain ⟨g1, o1, _⟩ := alloc_good g0 []
  obtain ⟨g2, o2, _⟩ := alloc_good g1 []
  obtain ⟨g3, o3, _⟩ := alloc_good g2 []
  obtain ⟨g4, o4, _⟩ := alloc_good g3 []
  have hp : ([(alloc (alloc (alloc (alloc m []).2 []).2 []).2 []).1, (alloc (alloc (alloc m []).2 []).2 []).1, (alloc (alloc m []).2 []).1,
      (alloc m []).1] : List Nat).Perm (owned (new m size).2) := by
    refine List.perm_iff_count.2 fun x => ?_
    show _ = List.count x ([(alloc (alloc m []).2 []).1, (alloc (alloc (alloc m []).2 []).2 []).1,
      (alloc (alloc (alloc (alloc m []).2 []).2 []).2 []).1, (alloc m []).1] ++ strings (List.replicate (if size < 128 then 128 else size) Slot.zero))
    rw [strings_zero]
    simp only [List.count_cons, List.append_nil]
    omega
  refine ⟨g4.perm hp, ?_, ?_⟩
  · rw [← others_perm hp]
    show others _ _ = _
    refine (o4.trans (o3.trans (o2.trans o1))).trans ?_
    funext p
    simp [others]
  · show (⟨0, (List.replicate (if size < 128 then 128 else size) Slot.zero).map _⟩ : Ini.Dict) = _
    rw [List.map_replicate]
    rfl

/-- `iniparser_getstring` gives a pointer of the dictionary, and leaves the heap as it was. -/
theorem getstring_good {m : Heap} {d : Dict} (hg : Good m (owned d)) {key : Bytes} {r : Ini.Found}
    (hr : Ini.getstring (contents m d) key = .ok r) :
    ∃ m' r', getstring m d key = .ok (m', r') ∧ m'.blocks = m.blocks ∧ Good m' (owned d) ∧ foundOf m r' = r ∧
      (∀ v, r' = .value v → ∃ s ∈ d.slots, s.key.bind m.blocks = some (Ini.strlwc key) ∧ s.val = v) := by
  obtain ⟨a1, a2, a3, a4, a5⟩ := alloc_good hg (Ini.strlwc key)
  obtain ⟨m', f1, f2, f3, f4⟩ := free_good a1
  have hsame : ∀ q ∈ strings d.slots, (alloc m (Ini.strlwc key)).2.blocks q = m.blocks q := fun q hq => a4 q (hg.liveSlots q hq)
  have hl : Live (alloc m (Ini.strlwc key)).2 d.slots := fun q hq => by rw [hsame q hq]; exact hg.liveSlots q hq
  have hr2 : Ini.getLoop (Ini.hash (Ini.strlwc key)) (Ini.strlwc key) (d.slots.map (slotOf (alloc m (Ini.strlwc key)).2)) = .ok r := by
    rw [slots_congr hsame]
    exact hr
  obtain ⟨r', h1, h2, h3⟩ := getLoop_contents _ _ _ d.slots hl r hr2
  have hblocks : m'.blocks = m.blocks := by
    funext q
    by_cases e : q = (alloc m (Ini.strlwc key)).1
    · subst e
      have : m'.blocks (alloc m (Ini.strlwc key)).1 = none := by
        have := f1
        unfold free at this
        rw [a3] at this
        injection this with this
        rw [← this]
        simp
      rw [this, a5]
    · rw [f4 q e]
      show (if q = m.next then _ else m.blocks q) = _
      exact if_neg e
  have hbind : ∀ s ∈ d.slots, s.key.bind (alloc m (Ini.strlwc key)).2.blocks = s.key.bind m.blocks ∧
      s.val.bind (alloc m (Ini.strlwc key)).2.blocks = s.val.bind m.blocks := by
    intro s hs
    constructor
    · cases hk : s.key with
      | none => rfl
      | some p => exact hsame p (mem_strings hs (.inl hk))
    · cases hk : s.val with
      | none => rfl
      | some p => exact hsame p (mem_strings hs (.inr hk))
  refine ⟨m', r', ?_, hblocks, f2, ?_, ?_⟩
  · unfold getstring
    dsimp only
    have : load (alloc m (Ini.strlwc key)).2 (alloc m (Ini.strlwc key)).1 = .ok (Ini.strlwc key) := by
      unfold load
      rw [a3]
    rw [this, Outcome.ok_bind, h1, Outcome.ok_bind, f1, Outcome.ok_bind]
    rfl
  · cases r' with
    | default => exact h2
    | value v =>
      obtain ⟨i, s, g1, g2, g3⟩ := h3 v rfl
      rw [← h2]
      show Ini.Found.value _ = Ini.Found.value _
      rw [← g3, (hbind s (List.mem_of_getElem? g1)).2]
  · intro v hv
    obtain ⟨i, s, g1, g2, g3⟩ := h3 v hv
    refine ⟨s, List.mem_of_getElem? g1, ?_, g3⟩
    rw [← (hbind s (List.mem_of_getElem? g1)).1]
    exact g2

end Msat.IniHeap
