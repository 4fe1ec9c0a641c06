import Verif.Lemmas.IniHeap
import Verif.Props.C36_C37

/-
C111: the memory of INI dictionaries: whatever is done with a dictionary, releasing it gives back every block it allocated and no other, blocks
of the caller are never changed or released, values are copies, and a string that a lookup returned stays what it was until its own
entry is set or removed.
-/
namespace Msat.Props
open IniHeap
open Msat.IniSpec (value)

/-- What an operation means for the values of the entries (`IniSpec.value`): lookups change nothing. -/
def recorded (hist : List IniSpec.Op) : IniHeap.Op → List IniSpec.Op
  | .set e v => hist ++ [.set (Ini.strlwc e) v]
  | .copy e o => hist ++ [.set (Ini.strlwc e) (value hist (Ini.strlwc o)).join]
  | .unset e => hist ++ [.unset (Ini.strlwc e)]
  | .get _ => hist

/-- The operation neither looks up a key whose hash is zero (`C36_violated_hash_zero`), nor copies the value of an entry to the entry itself
(`C111_violated_own_value`). -/
def CarefulOp (hist : List IniSpec.Op) : IniHeap.Op → Prop
  | .set .. => True
  | .copy e o => Ini.hash (Ini.strlwc o) ≠ 0 ∧ (Ini.strlwc e = Ini.strlwc o → (value hist (Ini.strlwc o)).join = none)
  | .unset _ => True
  | .get e => Ini.hash (Ini.strlwc e) ≠ 0

/-- The operations, with what was done before each. -/
def AllCareful (hist : List IniSpec.Op) : List IniHeap.Op → Prop
  | [] => True
  | op :: ops => CarefulOp hist op ∧ AllCareful (recorded hist op) ops

/-- A dictionary on the heap after a history. -/
structure Reached (m : Heap) (d : IniHeap.Dict) (hist : List IniSpec.Op) (rest : Nat → Option Bytes) : Prop where
  good : Good m (owned d)
  inv : Ini.Inv (contents m d) hist
  rest : others m (owned d) = rest

/-- The key an operation sets or removes. -/
def target : IniHeap.Op → Option Bytes
  | .set e _ => some (Ini.strlwc e)
  | .copy e _ => some (Ini.strlwc e)
  | .unset e => some (Ini.strlwc e)
  | .get _ => none

theorem set_reached {m : Heap} {d : IniHeap.Dict} {hist : List IniSpec.Op} {rest : Nat → Option Bytes} (h : Reached m d hist rest) {key : Bytes}
    {val : Option Nat} (hv : Readable m d key val) :
    ∃ m' d', IniHeap.set m d key val = .ok (m', d') ∧ Reached m' d' (hist ++ [.set key (val.bind m.blocks)]) rest ∧
      (∀ k p v, k ≠ key → Holds m d k p v → Holds m' d' k p v) := by
  obtain ⟨m', d', h1, h2, h3⟩ := set_done h.good h.inv hv
  obtain ⟨D, hD, hi⟩ := Ini.inv_set h.inv key (val.bind m.blocks)
  have : D = contents m' d' := Outcome.ok.inj (hD.symm.trans h3)
  exact ⟨m', d', h1, ⟨h2.good, this ▸ hi, by rw [h2.rest, h.rest]⟩, h2.keep⟩

/-- Looking up finds the value of the entry, and leaves the heap as it was. -/
theorem get_reached {m : Heap} {d : IniHeap.Dict} {hist : List IniSpec.Op} {rest : Nat → Option Bytes} (h : Reached m d hist rest) (key : Bytes)
    (hz : Ini.hash (Ini.strlwc key) ≠ 0) :
    ∃ m' r, IniHeap.getstring m d key = .ok (m', r) ∧ m'.blocks = m.blocks ∧ Reached m' d hist rest ∧
      foundOf m r = (match value hist (Ini.strlwc key) with | none => .default | some v => .value v) ∧
      (∀ v, r = .value v → ∃ s ∈ d.slots, s.key.bind m.blocks = some (Ini.strlwc key) ∧ s.val = v) := by
  have hr : Ini.getstring (contents m d) key = _ := Ini.get_inv h.inv (Ini.strlwc key) hz
  obtain ⟨m', r, h1, h2, h3, h4, h5⟩ := getstring_good h.good hr
  refine ⟨m', r, h1, h2, ⟨h3, ?_, ?_⟩, h4, h5⟩
  · have : contents m' d = contents m d := by
      unfold contents
      rw [slots_congr (fun q _ => congrFun h2 q)]
    rw [this]
    exact h.inv
  · rw [← h.rest]
    unfold others
    rw [h2]

theorem holds_blocks {m m' : Heap} (hb : m'.blocks = m.blocks) {d : IniHeap.Dict} {k : Bytes} {p : Nat} {v : Bytes} (h : Holds m d k p v) :
    Holds m' d k p v := by
  unfold Holds at *
  rw [hb]
  exact h

/-- A block that is in use and not the dictionary's can be read by it. -/
theorem readable_other {m : Heap} {d : IniHeap.Dict} {p : Nat} (hp : (m.blocks p).isSome) (hn : p ∉ owned d) (key : Bytes) :
    Readable m d key (some p) := by
  intro q hq
  injection hq with hq
  subst hq
  refine ⟨hp, fun hm => hn (List.mem_append_left _ hm), ?_⟩
  intro s hs _ hv
  exact hn (List.mem_append_right _ (mem_strings hs (.inr hv)))

theorem step_reached {m : Heap} {d : IniHeap.Dict} {hist : List IniSpec.Op} {rest : Nat → Option Bytes} (h : Reached m d hist rest)
    (op : IniHeap.Op) (hc : CarefulOp hist op) :
    ∃ m' d', IniHeap.step m d op = .ok (m', d') ∧ Reached m' d' (recorded hist op) rest ∧
      (∀ k p v, target op ≠ some k → Holds m d k p v → Holds m' d' k p v) := by
  cases op with
  | set e v =>
    cases v with
    | none =>
      obtain ⟨m', d', h1, h2, h3⟩ := set_reached h (key := Ini.strlwc e) (val := none) (fun p hp => by cases hp)
      exact ⟨m', d', h1, h2, fun k p v hk => h3 k p v (fun e => hk (by rw [e]; rfl))⟩
    | some b =>
      obtain ⟨a1, a2, a3, a4, a5⟩ := alloc_good h.good b
      have hn : (IniHeap.alloc m b).1 ∉ owned d := (List.nodup_cons.1 a1.nodup).1
      have hg1 : Good (IniHeap.alloc m b).2 (owned d) := ⟨a1.top, (List.nodup_cons.1 a1.nodup).2, fun p hp => a1.live p (by simp [hp])⟩
      have hsame : ∀ q ∈ strings d.slots, (IniHeap.alloc m b).2.blocks q = m.blocks q := fun q hq => a4 q (h.good.liveSlots q hq)
      have hc1 : contents (IniHeap.alloc m b).2 d = contents m d := by
        unfold contents
        rw [slots_congr hsame]
      have hr1 : Reached (IniHeap.alloc m b).2 d hist (others (IniHeap.alloc m b).2 (owned d)) := ⟨hg1, hc1 ▸ h.inv, rfl⟩
      obtain ⟨m', d', h1, h2, h3⟩ := set_reached hr1 (readable_other (by rw [a3]; rfl) hn (Ini.strlwc e))
      -- the caller's block is still there, and not the dictionary's
      have hp : others m' (owned d') (IniHeap.alloc m b).1 = some b := by
        rw [h2.rest]
        unfold others
        rw [if_neg hn, a3]
      have hn' : (IniHeap.alloc m b).1 ∉ owned d' := by
        intro hm
        unfold others at hp
        rw [if_pos hm] at hp
        cases hp
      have hb' : m'.blocks (IniHeap.alloc m b).1 = some b := by
        unfold others at hp
        rw [if_neg hn'] at hp
        exact hp
      have hg2 : Good m' ((IniHeap.alloc m b).1 :: owned d') := by
        refine ⟨h2.good.top, List.nodup_cons.2 ⟨hn', h2.good.nodup⟩, ?_⟩
        intro q hq
        rcases List.mem_cons.1 hq with rfl | hq
        · rw [hb']; rfl
        · exact h2.good.live q hq
      obtain ⟨m2, f1, f2, f3, f4⟩ := free_good hg2
      have hsame2 : ∀ q ∈ strings d'.slots, m2.blocks q = m'.blocks q := fun q hq =>
        f4 q (fun e => hn' (e ▸ List.mem_append_right _ hq))
      refine ⟨m2, d', ?_, ⟨f2, ?_, ?_⟩, ?_⟩
      · show (IniHeap.setstr (IniHeap.alloc m b).2 d e (some (IniHeap.alloc m b).1) >>= fun x =>
          IniHeap.free x.1 (IniHeap.alloc m b).1 >>= fun y => pure (y, x.2)) = _
        unfold IniHeap.setstr
        rw [h1, Outcome.ok_bind, f1, Outcome.ok_bind]
        rfl
      · have : contents m2 d' = contents m' d' := by
          unfold contents
          rw [slots_congr hsame2]
        rw [this]
        have hbind : (some (IniHeap.alloc m b).1).bind (IniHeap.alloc m b).2.blocks = some b := a3
        rw [hbind] at h2
        exact h2.inv
      · rw [f3, ← h.rest]
        funext q
        have h4 := congrFun h2.rest q
        have h5 : ∀ (M : Heap) (l : List Nat), q ≠ (IniHeap.alloc m b).1 → others M ((IniHeap.alloc m b).1 :: l) q = others M l q := by
          intro M l hne
          unfold others
          simp [hne]
        by_cases hq : q = (IniHeap.alloc m b).1
        · subst hq
          have : others m' ((IniHeap.alloc m b).1 :: owned d') (IniHeap.alloc m b).1 = none := by
            unfold others
            simp
          rw [this]
          unfold others
          rw [if_neg hn, a5]
        · rw [h5 m' _ hq, h4, ← h5 _ _ hq, a2]
      · intro k p v hk hh
        have h0 : Holds (IniHeap.alloc m b).2 d k p v := by
          obtain ⟨x, kp, y1, y2, y3, y4, y5⟩ := hh
          exact ⟨x, kp, y1, y2, by rw [a4 kp (by rw [y3]; rfl), y3], y4, by rw [a4 p (by rw [y5]; rfl), y5]⟩
        obtain ⟨x, kp, y1, y2, y3, y4, y5⟩ := h3 k p v (fun e => hk (by rw [e]; rfl)) h0
        exact ⟨x, kp, y1, y2, by rw [hsame2 kp (mem_strings y1 (.inl y2)), y3], y4, by rw [hsame2 p (mem_strings y1 (.inr y4)), y5]⟩
  | copy e o =>
    obtain ⟨m1, r, h1, h2, h3, h4, h5⟩ := get_reached h o hc.1
    cases r with
    | default =>
      have hv : value hist (Ini.strlwc o) = none := by
        cases hv : value hist (Ini.strlwc o) with
        | none => rfl
        | some v => rw [hv] at h4; cases h4
      obtain ⟨m', d', g1, g2, g3⟩ := set_reached h3 (key := Ini.strlwc e) (val := none) (fun p hp => by cases hp)
      refine ⟨m', d', ?_, ?_, fun k p v hk hh => g3 k p v (fun e => hk (by rw [e]; rfl)) (holds_blocks h2 hh)⟩
      · show (IniHeap.getstring m d o >>= _) = _
        rw [h1, Outcome.ok_bind]
        exact g1
      · have : recorded hist (.copy e o) = hist ++ [.set (Ini.strlwc e) none] := by
          show hist ++ [IniSpec.Op.set _ (value hist (Ini.strlwc o)).join] = _
          rw [hv]
          rfl
        rw [this]
        exact g2
    | value vp =>
      obtain ⟨s, hs, hk, hsv⟩ := h5 vp rfl
      have hval : (value hist (Ini.strlwc o)).join = vp.bind m.blocks := by
        cases hv : value hist (Ini.strlwc o) with
        | none => rw [hv] at h4; cases h4
        | some v => rw [hv] at h4; injection h4 with h4; exact h4.symm
      have hread : Readable m1 d (Ini.strlwc e) vp := by
        intro p hp
        have hmem : p ∈ strings d.slots := mem_strings hs (.inr (hsv.trans hp))
        refine ⟨h3.good.liveSlots p hmem, ?_, ?_⟩
        · intro hm
          have := h3.good.nodup
          unfold owned at this
          exact (List.nodup_append.1 this).2.2 p hm p hmem rfl
        · intro t ht htk htv
          rw [h2] at htk
          -- the same pointer, so the same position, so the same key
          have hst : s = t := by
            obtain ⟨i, hi⟩ := List.getElem?_of_mem hs
            obtain ⟨j, hj⟩ := List.getElem?_of_mem ht
            apply Classical.byContradiction
            intro hne
            have hnd := (List.nodup_append.1 h3.good.nodup).2.1
            obtain ⟨a, b, hab, _⟩ := split_at hi
            rw [hab, strings_split] at hnd
            rw [hab] at ht
            have h7 := List.nodup_append.1 hnd
            have h8 := List.nodup_append.1 h7.2.1
            have hpin : p ∈ s.key.toList ++ s.val.toList := by rw [hsv.trans hp]; simp
            rcases List.mem_append.1 ht with ht | ht
            · exact h7.2.2 p (mem_strings ht (.inr htv)) p (List.mem_append_left _ hpin) rfl
            · rcases List.mem_cons.1 ht with ht | ht
              · exact hne ht.symm
              · exact h8.2.2 p hpin p (mem_strings ht (.inr htv)) rfl
          rw [← hst, hk] at htk
          injection htk with htk
          have := hc.2 htk.symm
          rw [hval, hp] at this
          have hl := h.good.liveSlots p hmem
          have this : m.blocks p = none := this
          rw [this] at hl
          cases hl
      obtain ⟨m', d', g1, g2, g3⟩ := set_reached h3 hread
      refine ⟨m', d', ?_, ?_, fun k p v hk hh => g3 k p v (fun e => hk (by rw [e]; rfl)) (holds_blocks h2 hh)⟩
      · show (IniHeap.getstring m d o >>= _) = _
        rw [h1, Outcome.ok_bind]
        exact g1
      · have : recorded hist (.copy e o) = hist ++ [.set (Ini.strlwc e) (vp.bind m1.blocks)] := by
          show hist ++ [IniSpec.Op.set _ (value hist (Ini.strlwc o)).join] = _
          rw [hval, h2]
        rw [this]
        exact g2
  | unset e =>
    obtain ⟨m', d', h1, h2, h3⟩ := unset_done h.good (Ini.strlwc e)
    refine ⟨m', d', h1, ⟨h2.good, ?_, by rw [h2.rest, h.rest]⟩, fun k p v hk => h2.keep k p v (fun e => hk (by rw [e]; rfl))⟩
    rw [← h3]
    exact Ini.inv_unset h.inv (Ini.strlwc e)
  | get e =>
    obtain ⟨m1, r, h1, h2, h3, _, _⟩ := get_reached h e hc
    refine ⟨m1, d, ?_, h3, fun k p v _ hh => holds_blocks h2 hh⟩
    show (IniHeap.getstring m d e >>= _) = _
    rw [h1, Outcome.ok_bind]
    rfl

theorem run_reached : ∀ (ops : List IniHeap.Op) {m : Heap} {d : IniHeap.Dict} {hist : List IniSpec.Op} {rest : Nat → Option Bytes},
    Reached m d hist rest → AllCareful hist ops →
    ∃ m' d', IniHeap.run m d ops = .ok (m', d') ∧ Reached m' d' (ops.foldl recorded hist) rest ∧
      (∀ k p v, (∀ op ∈ ops, target op ≠ some k) → Holds m d k p v → Holds m' d' k p v)
  | [], m, d, _, _, h, _ => ⟨m, d, rfl, h, fun _ _ _ _ hh => hh⟩
  | op :: ops, m, d, hist, rest, h, hc => by
    obtain ⟨m1, d1, h1, h2, h3⟩ := step_reached h op hc.1
    obtain ⟨m2, d2, g1, g2, g3⟩ := run_reached ops h2 hc.2
    refine ⟨m2, d2, ?_, g2, ?_⟩
    · rw [IniHeap.run, h1, Outcome.ok_bind]
      exact g1
    · intro k p v hk hh
      exact g3 k p v (fun op ho => hk op (by simp [ho])) (h3 k p v (hk op (by simp)) hh)

theorem new_reached {m : Heap} (hm : ∀ p, m.next ≤ p → m.blocks p = none) (size : Nat) :
    Reached (IniHeap.new m size).1 (IniHeap.new m size).2 [] m.blocks := by
  obtain ⟨h1, h2, h3⟩ := new_good hm size
  exact ⟨h1, h3 ▸ Ini.inv_new size, h2⟩

/-- Whatever is done with a new dictionary (setting, copying, removing, looking up, in any order and number, so that it grows), nothing is
undefined, and releasing it leaves the heap exactly as it was before: every block it allocated is released once, and no block of the caller is
changed or released. -/
theorem C111_released (m : Heap) (hm : ∀ p, m.next ≤ p → m.blocks p = none) (size : Nat) (ops : List IniHeap.Op) (hc : AllCareful [] ops) :
    ∃ m1 d1 m2, IniHeap.run (IniHeap.new m size).1 (IniHeap.new m size).2 ops = .ok (m1, d1) ∧ IniHeap.del m1 d1 = .ok m2 ∧
      m2.blocks = m.blocks := by
  obtain ⟨m1, d1, h1, h2, _⟩ := run_reached ops (new_reached hm size) hc
  obtain ⟨m2, g1, _, g3⟩ := del_good h2.good
  exact ⟨m1, d1, m2, h1, g1, by rw [g3, h2.rest]⟩

/-- While the dictionary is in use, the blocks of the caller are what they were. -/
theorem C111_callers_blocks (m : Heap) (hm : ∀ p, m.next ≤ p → m.blocks p = none) (size : Nat) (ops : List IniHeap.Op) (hc : AllCareful [] ops)
    (p : Nat) (b : Bytes) (hp : m.blocks p = some b) :
    ∃ m1 d1, IniHeap.run (IniHeap.new m size).1 (IniHeap.new m size).2 ops = .ok (m1, d1) ∧ m1.blocks p = some b := by
  obtain ⟨m1, d1, h1, h2, _⟩ := run_reached ops (new_reached hm size) hc
  refine ⟨m1, d1, h1, ?_⟩
  have := congrFun h2.rest p
  unfold others at this
  rw [hp] at this
  split at this
  · cases this
  · exact this

/-- A lookup returns a pointer to the value that the history gives the entry: values are copied, also when the caller releases its own. -/
theorem C111_values (m : Heap) (hm : ∀ p, m.next ≤ p → m.blocks p = none) (size : Nat) (ops : List IniHeap.Op) (hc : AllCareful [] ops)
    (key : Bytes) (hz : Ini.hash (Ini.strlwc key) ≠ 0) :
    ∃ m1 d1 m2 r, IniHeap.run (IniHeap.new m size).1 (IniHeap.new m size).2 ops = .ok (m1, d1) ∧ IniHeap.getstring m1 d1 key = .ok (m2, r) ∧
      (value (ops.foldl recorded []) (Ini.strlwc key) = none → r = .default) ∧
      (value (ops.foldl recorded []) (Ini.strlwc key) = some none → r = .value none) ∧
      (∀ v, value (ops.foldl recorded []) (Ini.strlwc key) = some (some v) → ∃ p, r = .value (some p) ∧ load m2 p = .ok v) := by
  obtain ⟨m1, d1, h1, h2, _⟩ := run_reached ops (new_reached hm size) hc
  obtain ⟨m2, r, g1, g2, g3, g4, g5⟩ := get_reached h2 key hz
  refine ⟨m1, d1, m2, r, h1, g1, ?_, ?_, ?_⟩
  · intro hv
    rw [hv] at g4
    cases r with
    | default => rfl
    | value p => cases g4
  · intro hv
    rw [hv] at g4
    cases r with
    | default => cases g4
    | value p =>
      cases p with
      | none => rfl
      | some p =>
        exfalso
        obtain ⟨s, hs, _, hsv⟩ := g5 _ rfl
        have hl := h2.good.liveSlots p (mem_strings hs (.inr hsv))
        injection g4 with g4
        have g4 : m1.blocks p = none := g4
        rw [g4] at hl
        cases hl
  · intro v hv
    rw [hv] at g4
    cases r with
    | default => cases g4
    | value p =>
      injection g4 with g4
      cases p with
      | none => cases g4
      | some p =>
        have g4 : m1.blocks p = some v := g4
        exact ⟨p, rfl, by unfold load; rw [g2, g4]⟩

/-- Two dictionaries in a heap, and a lookup in one of them: an entry is set and copied, another one removed. -/
example : AllCareful ([] : List IniSpec.Op) [.set (str "A:B") (some (str "1")), .copy (str "A:C") (str "a:b"), .unset (str "A:B"), .get (str "a:c")] ∧
    value ([IniHeap.Op.set (str "A:B") (some (str "1")), .copy (str "A:C") (str "a:b"), .unset (str "A:B"), .get (str "a:c")].foldl recorded [])
      (str "a:c") = some (some (str "1")) := by
  refine ⟨⟨trivial, ⟨by decide +kernel, by decide +kernel⟩, trivial, ?_, trivial⟩, by decide +kernel⟩
  show Ini.hash _ ≠ 0
  decide +kernel

/-- The pointer that a lookup returned can be read, and holds what it held, after any further operations that do not set or remove its
entry: other entries may be set and removed, and the dictionary may grow. -/
theorem C111_pointers (m : Heap) (hm : ∀ p, m.next ≤ p → m.blocks p = none) (size : Nat) (ops later : List IniHeap.Op)
    (hc : AllCareful [] (ops ++ later)) (key : Bytes) (hk : ∀ op ∈ later, target op ≠ some (Ini.strlwc key)) (m1 : Heap) (d1 : IniHeap.Dict)
    (h1 : IniHeap.run (IniHeap.new m size).1 (IniHeap.new m size).2 ops = .ok (m1, d1)) (hz : Ini.hash (Ini.strlwc key) ≠ 0) (m2 : Heap) (p : Nat)
    (hg : IniHeap.getstring m1 d1 key = .ok (m2, .value (some p))) (v : Bytes) (hv : load m2 p = .ok v) :
    ∃ m3 d3, IniHeap.run m2 d1 later = .ok (m3, d3) ∧ load m3 p = .ok v := by
  have hsplit : ∀ (ops : List IniHeap.Op) (hist : List IniSpec.Op), AllCareful hist (ops ++ later) →
      AllCareful hist ops ∧ AllCareful (ops.foldl recorded hist) later := by
    intro ops
    induction ops with
    | nil => exact fun hist h => ⟨trivial, h⟩
    | cons op ops ih =>
      intro hist h
      obtain ⟨a, b⟩ := ih _ h.2
      exact ⟨⟨h.1, a⟩, b⟩
  obtain ⟨hc1, hc2⟩ := hsplit ops [] hc
  obtain ⟨m1', d1', e1, r1, _⟩ := run_reached ops (new_reached hm size) hc1
  rw [h1] at e1
  injection e1 with e1
  injection e1 with ea eb
  subst ea eb
  obtain ⟨m2', r, e2, hb, r2, _, h5⟩ := get_reached r1 key hz
  rw [hg] at e2
  injection e2 with e2
  injection e2 with ec ed
  subst ec
  subst ed
  obtain ⟨s, hs, hsk, hsv⟩ := h5 _ rfl
  obtain ⟨m3, d3, e3, r3, hkeep⟩ := run_reached later r2 hc2
  refine ⟨m3, d3, e3, ?_⟩
  have hvb : m2.blocks p = some v := by
    unfold load at hv
    split at hv
    · cases hv
    · injection hv with hv; rw [← hv]; assumption
  cases hks : s.key with
  | none => rw [hks] at hsk; cases hsk
  | some kp =>
    rw [hks] at hsk
    have hsk : m1.blocks kp = some (Ini.strlwc key) := hsk
    obtain ⟨x, kq, y1, y2, y3, y4, y5⟩ := hkeep (Ini.strlwc key) p v hk ⟨s, kp, hs, hks, by rw [hb]; exact hsk, hsv, hvb⟩
    unfold load
    rw [y5]

/-- Discrepancy: an entry cannot be set to its own value by the pointer that a lookup returned: `dictionary_set` frees the old value before it
copies the new one (msat/iniparser.c:398-400), and so copies from freed memory.  This happens after any history that gives the entry a
value. -/
theorem C111_violated_own_value (m : Heap) (hm : ∀ p, m.next ≤ p → m.blocks p = none) (size : Nat) (ops : List IniHeap.Op)
    (hc : AllCareful [] ops) (e e' : Bytes) (he : Ini.strlwc e = Ini.strlwc e') (hz : Ini.hash (Ini.strlwc e) ≠ 0) (v : Bytes)
    (hv : value (ops.foldl recorded []) (Ini.strlwc e) = some (some v)) :
    IniHeap.run (IniHeap.new m size).1 (IniHeap.new m size).2 (ops ++ [.copy e e']) = .ub := by
  obtain ⟨m1, d1, h1, h2, _⟩ := run_reached ops (new_reached hm size) hc
  have hz' : Ini.hash (Ini.strlwc e') ≠ 0 := he ▸ hz
  obtain ⟨m2, r, g1, g2, g3, g4, g5⟩ := get_reached h2 e' hz'
  rw [← he, hv] at g4
  have happ : ∀ (ops : List IniHeap.Op) (m d m' d'), IniHeap.run m d ops = .ok (m', d') → ∀ l, IniHeap.run m d (ops ++ l) = IniHeap.run m' d' l := by
    intro ops
    induction ops with
    | nil => intro m d m' d' h l; injection h with h; injection h with ha hb; rw [ha, hb]; rfl
    | cons op ops ih =>
      intro m d m' d' h l
      rw [List.cons_append, IniHeap.run]
      rw [IniHeap.run] at h
      cases hs : IniHeap.step m d op with
      | ok x =>
        rw [hs, Outcome.ok_bind] at h
        rw [Outcome.ok_bind]
        exact ih _ _ _ _ h l
      | throws msg => rw [hs] at h; cases h
      | ub => rw [hs] at h; cases h
      | terminate => rw [hs] at h; cases h
      | diverges => rw [hs] at h; cases h
  rw [happ ops _ _ _ _ h1]
  rw [IniHeap.run]
  have hstep : IniHeap.step m1 d1 (.copy e e') = .ub := by
    show (IniHeap.getstring m1 d1 e' >>= _) = _
    rw [g1, Outcome.ok_bind]
    cases r with
    | default => cases g4
    | value vp =>
      injection g4 with g4
      obtain ⟨s, hs, hsk, hsv⟩ := g5 vp rfl
      cases vp with
      | none => cases g4
      | some p =>
        have g4 : m1.blocks p = some v := g4
        show IniHeap.set m2 d1 (Ini.strlwc e) (some p) = .ub
        -- the entry is found
        have hinv := g3.inv
        obtain ⟨i, hi⟩ := List.getElem?_of_mem hs
        have hslot : (contents m2 d1).slots[i]? = some (slotOf m2 s) := by unfold contents; simp [hi]
        have hkey : (slotOf m2 s).key = some (Ini.strlwc e) := by
          show s.key.bind m2.blocks = _
          rw [g2, hsk, he]
        have hpos : (contents m2 d1).n > 0 := by
          rw [hinv.cnt]
          have : 0 < (contents m2 d1).slots.countP (·.key.isSome) := by
            rw [List.countP_pos_iff]
            exact ⟨_, List.mem_of_getElem? hslot, by rw [hkey]; rfl⟩
          omega
        have hfind : Ini.findKey (Ini.hash (Ini.strlwc e)) (Ini.strlwc e) (contents m2 d1).slots = some i := by
          cases hf : Ini.findKey (Ini.hash (Ini.strlwc e)) (Ini.strlwc e) (contents m2 d1).slots with
          | none =>
            exfalso
            exact Ini.findKey_none hinv.hh hf i _ hslot hkey
          | some j =>
            obtain ⟨t, ht, htk⟩ := Ini.findKey_some hf
            rw [hinv.uq i j _ _ _ hslot ht hkey htk]
        unfold IniHeap.set
        have hpres : present m2 d1 (Ini.strlwc e) = .ok (some i) := by
          unfold present
          have hpos : d1.n > 0 := hpos
          rw [if_pos hpos, findKey_contents m2 _ _ d1.slots g3.good.liveSlots]
          exact congrArg Outcome.ok hfind
        rw [hpres, Outcome.ok_bind]
        show replace m2 d1 i (some p) = _
        unfold replace
        simp only [hi, hsv]
        have hfree : freeOpt m2 (some p) = .ok { m2 with blocks := fun q => if q = p then none else m2.blocks q } := by
          show IniHeap.free m2 p = _
          unfold IniHeap.free
          rw [g2, g4]
        rw [hfree, Outcome.ok_bind]
        have : strdupOpt { m2 with blocks := fun q => if q = p then none else m2.blocks q } (some p) = .ub := by
          unfold strdupOpt load
          simp
        rw [this]
        rfl
  rw [hstep]
  rfl

/-- Setting an entry, then setting it to what a lookup of it returns. -/
example : IniHeap.run (IniHeap.new ⟨fun _ => none, 0⟩ 0).1 (IniHeap.new ⟨fun _ => none, 0⟩ 0).2
    ([.set (str "a:b") (some (str "1"))] ++ [.copy (str "A:B") (str "a:b")]) = .ub :=
  C111_violated_own_value _ (fun _ _ => rfl) 0 [.set (str "a:b") (some (str "1"))] ⟨trivial, trivial⟩ (str "A:B") (str "a:b") (by decide +kernel) (by decide +kernel) (str "1")
    (by decide +kernel)

end Msat.Props
