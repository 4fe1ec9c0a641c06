import Verif.Lemmas.Ini
import Verif.Lemmas.IniPacked
import Verif.Lemmas.Str

namespace Msat.Props
open Ini IniSpec

/-- A dictionary after a history of operations. -/
def runOps (d : Dict) : List Op → Outcome Dict
  | [] => .ok d
  | .set k v :: ops => do
    let d ← Ini.set d k v
    runOps d ops
  | .unset k :: ops => runOps (unset d k) ops

theorem runOps_inv (ops : List Op) : ∀ {d : Dict} {hist : List Op}, Inv d hist →
    ∃ d', runOps d ops = .ok d' ∧ Inv d' (hist ++ ops) := by
  induction ops with
  | nil => intro d hist h; exact ⟨d, rfl, by simpa using h⟩
  | cons op ops ih =>
    intro d hist h
    cases op with
    | set k v =>
      obtain ⟨d1, e1, h1⟩ := inv_set h k v
      obtain ⟨d2, e2, h2⟩ := ih h1
      refine ⟨d2, ?_, by simpa using h2⟩
      rw [runOps, e1, Outcome.ok_bind, e2]
    | unset k =>
      obtain ⟨d2, e2, h2⟩ := ih (inv_unset h k)
      exact ⟨d2, by rw [runOps, e2], by simpa using h2⟩

/-- After any history, of any length, a lookup returns the value last set and not removed since, or the
default.  Missing: keys whose hash is zero. -/
theorem C36_map_partial (size : Nat) (hist : List Op) (key : Bytes) (hz : Ini.hash key ≠ 0) :
    ∃ d, runOps (newDict size) hist = .ok d ∧
      get d key = .ok (match value hist key with | none => .default | some v => .value v) := by
  obtain ⟨d, e, h⟩ := runOps_inv hist (inv_new size)
  rw [List.nil_append] at h
  exact ⟨d, e, get_inv h key hz⟩

theorem runOps_packed (ops : List Op) : (∀ op ∈ ops, ∃ k v, op = .set k v) → ∀ {d d' : Dict}, Packed d.slots →
    runOps d ops = .ok d' → Packed d'.slots := by
  induction ops with
  | nil => intro _ d d' h e; injection e with e; rw [← e]; exact h
  | cons op ops ih =>
    intro hs d d' h e
    obtain ⟨k, v, rfl⟩ := hs op (by simp)
    rw [runOps] at e
    cases e1 : Ini.set d k v with
    | ok d1 =>
      rw [e1, Outcome.ok_bind] at e
      exact ih (fun op ho => hs op (List.mem_cons_of_mem _ ho)) (packed_set h e1) e
    | throws m => rw [e1] at e; cases e
    | ub => rw [e1] at e; cases e
    | terminate => rw [e1] at e; cases e
    | diverges => rw [e1] at e; cases e

/-- If nothing has been removed, every value that has been set is found, whatever the hash of its key. -/
theorem C36_never_removed (size : Nat) (hist : List Op) (hs : ∀ op ∈ hist, ∃ k v, op = .set k v) (key : Bytes)
    (v : Option Bytes) (hv : value hist key = some v) :
    ∃ d, runOps (newDict size) hist = .ok d ∧ get d key = .ok (.value v) := by
  obtain ⟨d, e, h⟩ := runOps_inv hist (inv_new size)
  rw [List.nil_append] at h
  exact ⟨d, e, get_present h (runOps_packed hist hs (packed_replicate _) e) key v hv⟩

/-- The empty key, whose hash is zero. -/
example : (∀ op ∈ [Op.set [] (some [7]), .set [97] none], ∃ k v, op = .set k v) ∧ Ini.hash [] = 0 ∧
    value [Op.set [] (some [7]), .set [97] none] [] = some (some [7]) :=
  ⟨by simp, by decide, by decide⟩

/-- No operation of any history fails, whatever the number of entries, and whatever the hash values. -/
theorem C36_no_failure (size : Nat) (hist : List Op) : ∃ d, runOps (newDict size) hist = .ok d ∧
    (d.n = 0 ↔ ∀ k, value hist k = none) := by
  obtain ⟨d, e, h⟩ := runOps_inv hist (inv_new size)
  rw [List.nil_append] at h
  refine ⟨d, e, ?_⟩
  rw [h.cnt]
  constructor
  · intro h0 k
    cases hv : value hist k with
    | none => rfl
    | some v =>
      obtain ⟨i, s, hi, hk, _⟩ := (h.val k v).2 hv
      have : 0 < d.slots.countP (·.key.isSome) := by
        rw [List.countP_pos_iff]
        exact ⟨s, List.mem_of_getElem? hi, by rw [hk]; rfl⟩
      omega
  · intro h0
    have : d.slots.countP (·.key.isSome) = 0 := by
      rw [List.countP_eq_zero]
      intro s hs hsome
      obtain ⟨k, hk⟩ := Option.isSome_iff_exists.1 hsome
      obtain ⟨i, hi⟩ := List.getElem?_of_mem hs
      have := (h.val k s.val).1 ⟨i, s, hi, hk, rfl⟩
      rw [h0 k] at this
      cases this
    omega

/-- A lookup with a key whose hash is zero, for example the empty one, is undefined behaviour when the key is
not there and a position is unused: after any history the next new entry of which would not make the
dictionary grow. -/
theorem C36_violated_hash_zero (size : Nat) (hist : List Op) (key : Bytes) (hz : Ini.hash key = 0)
    (hv : value hist key = none) :
    ∃ d, runOps (newDict size) hist = .ok d ∧ (d.n ≠ d.slots.length → get d key = .ub) := by
  obtain ⟨d, e, h⟩ := runOps_inv hist (inv_new size)
  rw [List.nil_append] at h
  refine ⟨d, e, fun hfull => get_ub h key hz hv ?_⟩
  apply Classical.byContradiction
  intro hno
  apply hfull
  rw [h.cnt]
  congr 1
  rw [List.countP_eq_length]
  intro s hs
  cases hk : s.key with
  | none => exact absurd ⟨s, hs, hk⟩ hno
  | some k => rfl

example : Ini.hash [] = 0 ∧ get (newDict 0) [] = .ub ∧ Ini.hash [97, 58, 98] ≠ 0 := by decide +kernel

/-! ## Access functions -/

theorem fold_eq_tolower (c : UInt8) : fold c = Str.tolower c := by
  unfold fold Str.tolower
  by_cases h : 65 ≤ c ∧ c ≤ 90
  · rw [if_pos h, if_pos (by simpa using h)]
  · rw [if_neg h, if_neg (by simpa using h)]

/-- Lookups, changes and removals do not depend on the case of the key. -/
theorem C37_case (d : Dict) (k k' : Bytes) (h : SameUpToCase k k') (v : Option Bytes) (nf : Int) :
    getstring d k = getstring d k' ∧ setstr d k v = setstr d k' v ∧ iniUnset d k = iniUnset d k' ∧
    findEntry d k = findEntry d k' ∧ getint d k nf = getint d k' nf ∧ getboolean d k nf = getboolean d k' nf := by
  have e : strlwc k = strlwc k' := by
    unfold strlwc
    unfold SameUpToCase at h
    have hf : (fold : UInt8 → UInt8) = Str.tolower := funext fold_eq_tolower
    rw [hf] at h
    rw [List.map_take, List.map_take, h]
  unfold findEntry getint getboolean getstring setstr iniUnset
  rw [e]
  exact ⟨rfl, rfl, rfl, rfl, rfl, rfl⟩

theorem inv_of_run {size : Nat} {hist : List Op} {d : Dict} (hd : runOps (newDict size) hist = .ok d) : Inv d hist := by
  obtain ⟨d', e, h⟩ := runOps_inv hist (inv_new size)
  rw [hd] at e
  injection e with e
  subst e
  simpa using h

/-- What is set under a key of at most 1024 characters is found under every spelling of it. -/
theorem C37_set_get (size : Nat) (hist : List Op) (d : Dict)
    (hd : runOps (newDict size) hist = .ok d) (k k' : Bytes) (hc : SameUpToCase k k')
    (hz : Ini.hash (k.map fold) ≠ 0) (hl : k.length ≤ 1024) (v : Option Bytes) :
    ∃ d', setstr d k v = .ok d' ∧ getstring d' k' = .ok (.value v) ∧
      getstring (iniUnset d' k) k' = .ok .default := by
  have h := inv_of_run hd
  have hf : (fold : UInt8 → UInt8) = Str.tolower := funext fold_eq_tolower
  have hlen : k'.length = k.length := by
    have := congrArg List.length hc
    simpa using this.symm
  have e1 : strlwc k = k.map fold := by
    unfold strlwc lineSize; rw [List.take_of_length_le hl, hf]
  have e2 : strlwc k' = k.map fold := by
    unfold strlwc lineSize; rw [List.take_of_length_le (by omega), ← hf]; exact hc.symm
  obtain ⟨d', e, h'⟩ := inv_set h (k.map fold) v
  refine ⟨d', by unfold setstr; rw [e1, e], ?_, ?_⟩
  · unfold getstring
    rw [e2, get_inv h' _ hz, value_append]
    simp [Op.key]
  · unfold getstring iniUnset
    rw [e1, e2, get_inv (inv_unset h' _) _ hz, value_append]
    simp [Op.key]

/-- Only the first 1024 characters of a key count: longer keys that differ later are one entry. -/
theorem C37_violated_long_keys (d : Dict) (common a b : Bytes) (h : common.length = 1024) (v : Option Bytes) :
    setstr d (common ++ a) v = setstr d (common ++ b) v ∧ getstring d (common ++ a) = getstring d (common ++ b) := by
  have e : strlwc (common ++ a) = strlwc (common ++ b) := by
    unfold strlwc lineSize
    rw [← h, List.take_left, List.take_left]
  unfold setstr getstring
  rw [e]
  exact ⟨rfl, rfl⟩

/-- The number and boolean accessors follow the null pointer of a section. -/
theorem C37_violated_section_value (size : Nat) (hist : List Op) (d : Dict)
    (hd : runOps (newDict size) hist = .ok d) (k : Bytes)
    (hz : Ini.hash (strlwc k) ≠ 0) (hs : value hist (strlwc k) = some none) (nf : Int) :
    findEntry d k = .ok true ∧ getint d k nf = .ub ∧ getboolean d k nf = .ub := by
  have h := inv_of_run hd
  have hg : getstring d k = .ok (.value none) := by
    unfold getstring; rw [get_inv h _ hz, hs]
  unfold findEntry getint getboolean
  rw [hg]
  exact ⟨rfl, rfl, rfl⟩

/-- A boolean is told by the first letter of the value. -/
theorem C37_boolean (size : Nat) (hist : List Op) (d : Dict)
    (hd : runOps (newDict size) hist = .ok d) (k : Bytes) (hz : Ini.hash (strlwc k) ≠ 0) (nf : Int) :
    (value hist (strlwc k) = none → getboolean d k nf = .ok nf) ∧
    (∀ c r, value hist (strlwc k) = some (some (c :: r)) → c ∈ "yYtT1".toUTF8.toList → getboolean d k nf = .ok 1) ∧
    (∀ c r, value hist (strlwc k) = some (some (c :: r)) → c ∈ "nNfF0".toUTF8.toList → getboolean d k nf = .ok 0) ∧
    (∀ c r, value hist (strlwc k) = some (some (c :: r)) → c ∉ "yYtT1nNfF0".toUTF8.toList →
      getboolean d k nf = .ok nf) ∧
    (value hist (strlwc k) = some (some []) → getboolean d k nf = .ok nf) := by
  have h := inv_of_run hd
  have e1 : "yYtT1".toUTF8.toList = [121, 89, 116, 84, 49] := by decide +kernel
  have e2 : "nNfF0".toUTF8.toList = [110, 78, 102, 70, 48] := by decide +kernel
  have e3 : "yYtT1nNfF0".toUTF8.toList = [121, 89, 116, 84, 49, 110, 78, 102, 70, 48] := by decide +kernel
  rw [e1, e2, e3]
  have hg := get_inv h _ hz
  unfold getboolean getstring
  rw [hg]
  refine ⟨?_, ?_, ?_, ?_, ?_⟩
  · intro hv; rw [hv]; rfl
  · intro c r hv hc
    rw [hv]
    rw [Outcome.ok_bind]
    dsimp only
    rw [if_pos]
    simp only [List.mem_cons, List.not_mem_nil, or_false, List.headD_cons] at hc ⊢
    rcases hc with h | h | h | h | h <;> simp [h]
  · intro c r hv hc
    rw [hv]
    rw [Outcome.ok_bind]
    dsimp only
    simp only [List.mem_cons, List.not_mem_nil, or_false, List.headD_cons] at hc ⊢
    rcases hc with rfl | rfl | rfl | rfl | rfl <;> rfl
  · intro c r hv hc
    rw [hv]
    rw [Outcome.ok_bind]
    dsimp only
    simp only [List.mem_cons, List.not_mem_nil, or_false, not_or] at hc
    simp [hc]
  · intro hv
    rw [hv]
    rfl

/-! ## Sections -/

theorem foldl_count (l : List Slot) : ∀ n : Nat,
    l.foldl (fun n s => if s.isSection then n + 1 else n) n = n + l.countP Slot.isSection := by
  induction l with
  | nil => intro n; rfl
  | cons s l ih =>
    intro n
    rw [List.foldl_cons, ih, List.countP_cons]
    cases s.isSection <;> simp
    omega

/-- The names that `secLoop` finds one after the other. -/
def sectionNames (l : List Slot) : List Bytes := l.filterMap fun s => if s.isSection then s.key else none

theorem sectionNames_length (l : List Slot) : (sectionNames l).length = l.countP Slot.isSection := by
  unfold sectionNames
  induction l with
  | nil => rfl
  | cons s l ih =>
    rw [List.countP_cons]
    cases hs : s.isSection with
    | false => rw [List.filterMap_cons_none (by simp [hs]), ih]; simp
    | true =>
      obtain ⟨k, hk⟩ : ∃ k, s.key = some k := by
        unfold Slot.isSection at hs
        split at hs
        · cases hs
        · rename_i k hk; exact ⟨k, hk⟩
      rw [List.filterMap_cons_some (b := k) (by simp [hs, hk]), List.length_cons, ih]
      simp

theorem secLoop_spec (l : List Slot) : ∀ (f n : Nat), f ≤ n →
    match (sectionNames l)[n - f]? with
    | some k => secLoop n f l = (some k, (n : Int) + 1)
    | none => (secLoop n f l).2 ≤ n := by
  induction l with
  | nil => intro f n h; simp [sectionNames, secLoop]; omega
  | cons s l ih =>
    intro f n h
    cases hs : s.isSection with
    | false =>
      have e : sectionNames (s :: l) = sectionNames l := by
        unfold sectionNames; rw [List.filterMap_cons_none (by simp [hs])]
      rw [e, secLoop, hs]
      exact ih f n h
    | true =>
      obtain ⟨k, hk⟩ : ∃ k, s.key = some k := by
        unfold Slot.isSection at hs
        split at hs
        · cases hs
        · rename_i k hk; exact ⟨k, hk⟩
      have e : sectionNames (s :: l) = k :: sectionNames l := by
        unfold sectionNames; rw [List.filterMap_cons_some (b := k) (by simp [hs, hk])]
      rw [e, secLoop, hs, if_pos rfl]
      by_cases hfn : f = n
      · subst hfn
        simp only [Nat.sub_self, List.getElem?_cons_zero]
        rw [if_pos (by omega), hk]
      · rw [show n - f = (n - (f + 1)) + 1 by omega, List.getElem?_cons_succ, if_neg (by omega)]
        exact ih (f + 1) n (by omega)

/-- The sections of a dictionary are numbered from zero, without gaps, each once: the names under the numbers
are different from each other, and are exactly the entries without colon. -/
theorem C37_sections (size : Nat) (hist : List Op) :
    ∃ d, runOps (newDict size) hist = .ok d ∧ ∃ names : List Bytes, names.Nodup ∧
      (∀ k, k ∈ names ↔ IsSection hist k) ∧ getnsec d = names.length ∧
      (∀ n : Nat, getsecname d n = names[n]?) ∧ (∀ n : Int, n < 0 → getsecname d n = none) := by
  obtain ⟨d, e, h⟩ := runOps_inv hist (inv_new size)
  rw [List.nil_append] at h
  refine ⟨d, e, sectionNames d.slots, ?_, ?_, ?_, ?_, ?_⟩
  · have huq := h.uq
    generalize d.slots = l at huq
    induction l with
    | nil => exact List.nodup_nil
    | cons s l ih =>
      have ih := ih (fun i j a b k ha hb hka hkb => by
        have := huq (i + 1) (j + 1) a b k (by simpa using ha) (by simpa using hb) hka hkb
        omega)
      cases hs : s.isSection with
      | false =>
        have e : sectionNames (s :: l) = sectionNames l := by
          unfold sectionNames; rw [List.filterMap_cons_none (by simp [hs])]
        rw [e]; exact ih
      | true =>
        obtain ⟨k, hk⟩ : ∃ k, s.key = some k := by
          unfold Slot.isSection at hs
          split at hs
          · cases hs
          · rename_i k hk; exact ⟨k, hk⟩
        have e : sectionNames (s :: l) = k :: sectionNames l := by
          unfold sectionNames; rw [List.filterMap_cons_some (b := k) (by simp [hs, hk])]
        rw [e, List.nodup_cons]
        refine ⟨?_, ih⟩
        intro hm
        unfold sectionNames at hm
        obtain ⟨t, ht, htk⟩ := List.mem_filterMap.1 hm
        split at htk
        · obtain ⟨j, hj⟩ := List.getElem?_of_mem ht
          have := huq 0 (j + 1) s t k rfl (by simpa using hj) hk htk
          omega
        · cases htk
  · intro k
    unfold sectionNames IsSection
    rw [List.mem_filterMap]
    constructor
    · rintro ⟨s, hs, hk⟩
      split at hk
      · rename_i hsec
        obtain ⟨i, hi⟩ := List.getElem?_of_mem hs
        have := (h.val k s.val).1 ⟨i, s, hi, hk, rfl⟩
        refine ⟨by rw [this]; rfl, ?_⟩
        unfold Slot.isSection at hsec
        rw [hk] at hsec
        simpa using hsec
      · cases hk
    · rintro ⟨hv, hn⟩
      obtain ⟨v, hv⟩ := Option.isSome_iff_exists.1 hv
      obtain ⟨i, s, hi, hk, _⟩ := (h.val k v).2 hv
      refine ⟨s, List.mem_of_getElem? hi, ?_⟩
      rw [if_pos, hk]
      unfold Slot.isSection
      rw [hk]
      simpa using hn
  · unfold getnsec
    rw [foldl_count, sectionNames_length]
    omega
  · intro n
    unfold getsecname
    rw [if_neg (by omega)]
    have hsp := secLoop_spec d.slots 0 n (Nat.zero_le _)
    rw [Nat.sub_zero] at hsp
    cases hn : (sectionNames d.slots)[n]? with
    | none =>
      rw [hn] at hsp
      dsimp only at hsp ⊢
      rw [if_pos (by exact_mod_cast hsp)]
    | some k =>
      rw [hn] at hsp
      dsimp only at hsp ⊢
      have hsp' : secLoop (n : Int) 0 d.slots = (some k, (n : Int) + 1) := hsp
      rw [hsp']
      dsimp only
      rw [if_neg (by omega)]
  · intro n hn
    unfold getsecname
    rw [if_pos hn]

/-- Two sections, one of them set twice, one removed; the entry `a:b`. -/
example : ∃ d, runOps (newDict 0) [.set [97] none, .set [98] none, .set [97] none, .set [97, 58, 98] (some [49]),
      .unset [98]] = .ok d ∧ getnsec d = 1 ∧ getsecname d 0 = some [97] ∧ getsecname d 1 = none ∧
      get d [97, 58, 98] = .ok (.value (some [49])) := by
  have h : (match runOps (newDict 0) [.set [97] none, .set [98] none, .set [97] none, .set [97, 58, 98] (some [49]),
      .unset [98]] with
    | .ok d => decide (getnsec d = 1 ∧ getsecname d 0 = some [97] ∧ getsecname d 1 = none ∧
        get d [97, 58, 98] = .ok (.value (some [49])))
    | _ => false) = true := by decide +kernel
  split at h
  · rename_i d hd
    exact ⟨d, hd, of_decide_eq_true h⟩
  · cases h

end Msat.Props
