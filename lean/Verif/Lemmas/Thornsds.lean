import Verif.Model.Thornsds
import Verif.Spec.Thornsds
import Verif.Lemmas.Outcome
import Verif.Lemmas.Text
import Verif.Props.C62
import Mathlib.Tactic.Tauto
import Mathlib.Data.List.Induction

namespace Msat.Thornsds
open Msat Ini IniSpec Db1Spec Text

/-- The files of a directory. -/
def docFile (d : Option Doc) : Option File := d.map fun items => ⟨render items, true⟩

/-- A dictionary that answers what the document says, for keys that may be asked. -/
def Answers (dict : Option Dict) (doc : Option Doc) : Prop :=
  ∀ key : Bytes, key.length ≤ 1024 → (Ini.hash (key.map fold) ≠ 0 ∨ entry doc key ≠ none) → (58 : UInt8) ∈ key →
    lookup dict key = .ok (match entry doc key with | none => .default | some v => .value (some v))

theorem value_mem {k : Bytes} {v : Option Bytes} : ∀ {hist : List Op}, value hist k = some v → Op.set k v ∈ hist := by
  have gen : ∀ (hist : List Op) (cur : Option (Option Bytes)),
      hist.foldl (fun cur op => if op.key = k then match op with
        | .set _ v => some v
        | .unset _ => none
        else cur) cur = some v → cur = some v ∨ Op.set k v ∈ hist := by
    intro hist
    induction hist with
    | nil => intro cur h; exact .inl h
    | cons op hist ih =>
      intro cur h
      rw [List.foldl_cons] at h
      rcases ih _ h with h | h
      · split at h
        · rename_i hk
          cases op with
          | set k' v' =>
            injection h with h
            have hk : k' = k := hk
            rw [← hk, ← h]
            exact .inr (by simp)
          | unset k' => cases h
        · exact .inl h
      · exact .inr (List.mem_cons_of_mem _ h)
  intro hist h
  rcases gen hist none h with h | h
  · cases h
  · exact h

theorem entries_none {k : Bytes} : ∀ (items : List Item) (cur : Bytes), Op.set k none ∈ entries cur items →
    ∃ w n a, Item.sec w n a ∈ items ∧ k = n.map fold := by
  intro items
  induction items with
  | nil => intro cur h; cases h
  | cons i is ih =>
    intro cur h
    have up : (∃ w n a, Item.sec w n a ∈ is ∧ k = n.map fold) → ∃ w n a, Item.sec w n a ∈ i :: is ∧ k = n.map fold := by
      rintro ⟨w, n, a, h, e⟩
      exact ⟨w, n, a, List.mem_cons_of_mem _ h, e⟩
    cases i with
    | blank ws => exact up (ih _ h)
    | comment ws m x => exact up (ih _ h)
    | sec ws n a =>
      rcases List.mem_cons.1 h with e | h
      · injection e with e
        exact ⟨ws, n, a, by simp, e⟩
      · exact up (ih _ h)
    | plain ws k' w1 w2 v w3 r =>
      rcases List.mem_cons.1 h with e | h
      · injection e with _ e; cases e
      · exact up (ih _ h)
    | quoted ws k' w1 w2 q v a =>
      rcases List.mem_cons.1 h with e | h
      · injection e with _ e; cases e
      · exact up (ih _ h)

theorem fold_colon {c : UInt8} : fold c = 58 ↔ c = 58 := by
  unfold fold
  constructor
  · intro h
    split at h
    · rename_i hc
      have h2 := congrArg UInt8.toNat h
      have h3 := UInt8.le_iff_toNat_le.1 hc.1
      have h4 := UInt8.le_iff_toNat_le.1 hc.2
      rw [UInt8.toNat_add] at h2
      simp at h2 h3 h4
      omega
    · exact h
  · rintro rfl
    decide

theorem colon_fold {key : Bytes} : (58 : UInt8) ∈ key.map fold ↔ (58 : UInt8) ∈ key := by
  rw [List.mem_map]
  constructor
  · rintro ⟨c, hc, e⟩
    rw [fold_colon] at e
    exact e ▸ hc
  · intro h
    exact ⟨58, h, by decide⟩

/-- A sound document has a text under every key with a colon that it has. -/
theorem value_entry {items : List Item} {key : Bytes} (h : SoundDoc (some items)) (hk : (58 : UInt8) ∈ key) :
    value (entries [] items) (key.map fold) = (entry (some items) key).map some := by
  cases hv : value (entries [] items) (key.map fold) with
  | none => unfold entry; dsimp only; rw [hv]; rfl
  | some v =>
    cases v with
    | some v => unfold entry; dsimp only; rw [hv]; rfl
    | none =>
      obtain ⟨w, n, a, hm, e⟩ := entries_none items [] (value_mem hv)
      have := (h items rfl).2 w n a hm
      rw [← colon_fold] at hk
      rw [e, colon_fold] at hk
      exact absurd hk this

theorem iniFile_doc {fs : Files} {path : Bytes} {doc : Option Doc} (hf : fs path = docFile doc) (h : SoundDoc doc) :
    ∃ dict, iniFile fs path = .ok dict ∧ Answers dict doc := by
  unfold iniFile
  rw [hf]
  cases doc with
  | none =>
    refine ⟨none, rfl, ?_⟩
    intro key _ _ _
    rfl
  | some items =>
    obtain ⟨d, e, _, hr⟩ := Props.C62_read_partial items (h items rfl).1
    refine ⟨some d, e, ?_⟩
    intro key hl hz hc
    have hv := value_entry h hc
    have := hr key hl (by
      rcases hz with hz | hz
      · exact .inl hz
      · right
        rw [hv]
        intro h0
        rw [Option.map_eq_none_iff] at h0
        exact hz h0)
    show getstring d key = _
    rw [this, hv]
    cases entry (some items) key <;> rfl

theorem getText_doc {dict : Option Dict} {doc : Option Doc} (h : Answers dict doc) {key : Bytes} (dflt : Bytes)
    (hl : key.length ≤ 1024) (hz : Ini.hash (key.map fold) ≠ 0 ∨ entry doc key ≠ none) (hc : (58 : UInt8) ∈ key) :
    getText dict key dflt = .ok (some ((entry doc key).getD dflt)) := by
  unfold getText
  rw [h key hl hz hc]
  cases entry doc key <;> rfl

theorem getInt_doc {dict : Option Dict} {doc : Option Doc} (h : Answers dict doc) {key : Bytes} (dflt : Int)
    (hl : key.length ≤ 1024) (hz : Ini.hash (key.map fold) ≠ 0 ∨ entry doc key ≠ none) (hc : (58 : UInt8) ∈ key) :
    getInt dict key dflt = .ok (match entry doc key with | none => dflt | some t => atoi t) := by
  unfold getInt
  rw [h key hl hz hc]
  cases entry doc key <;> rfl

theorem getFloat_doc {F : Type} (fl : Floats F) {dict : Option Dict} {doc : Option Doc} (h : Answers dict doc)
    {key : Bytes} (dflt : Int) (hl : key.length ≤ 1024)
    (hz : Ini.hash (key.map fold) ≠ 0 ∨ entry doc key ≠ none) (hc : (58 : UInt8) ∈ key) :
    getFloat fl dict key dflt = .ok (match entry doc key with | none => fl.const dflt | some t => fl.atof t) := by
  unfold getFloat
  rw [h key hl hz hc]
  cases entry doc key <;> rfl

/-! ### Numbers -/

theorem isdigit_of {c : UInt8} (h : 48 ≤ c ∧ c ≤ 57) : Str.isdigit c = true := by
  unfold Str.isdigit
  simp [h.1, h.2]

theorem decDigits_number : ∀ (t : Bytes) (acc : Nat), (∀ c ∈ t, 48 ≤ c ∧ c ≤ 57) →
    Str.decDigits acc t = t.foldl (fun a c => 10 * a + (c.toNat - 48)) acc
  | [], _, _ => rfl
  | c :: cs, acc, h => by
    rw [Str.decDigits, if_pos (isdigit_of (h c (by simp))), decDigits_number cs _ (fun c hc => h c (by simp [hc])),
      List.foldl_cons, Nat.mul_comm]

theorem atoi_number {t : Bytes} {n : Nat} (h : Number t n) : atoi t = n := by
  obtain ⟨hne, hd, rfl⟩ := h
  cases t with
  | nil => exact absurd rfl hne
  | cons c cs =>
    have hc := hd c (by simp)
    have h1 := UInt8.le_iff_toNat_le.1 hc.1
    have h2 := UInt8.le_iff_toNat_le.1 hc.2
    simp at h1 h2
    have hs : Str.isspace c = false := by
      unfold Str.isspace
      simp only [Bool.or_eq_false_iff, beq_eq_false_iff_ne, ne_eq, Bool.and_eq_false_iff, decide_eq_false_iff_not]
      refine ⟨?_, ?_⟩
      · rintro rfl; exact absurd h1 (by decide)
      · right
        intro hh
        have := UInt8.le_iff_toNat_le.1 hh
        simp at this
        omega
    unfold atoi
    dsimp only
    rw [List.dropWhile_cons_of_neg (by rw [hs]; simp)]
    rw [show (c :: cs).foldl (fun a c => 10 * a + (c.toNat - 48)) 0 = Str.decDigits 0 (c :: cs) from
      (decDigits_number _ _ hd).symm]
    split
    · rename_i e; injection e with e; rw [e] at h1; exact absurd h1 (by decide)
    · rename_i e; injection e with e; rw [e] at h1; exact absurd h1 (by decide)
    · rfl

theorem atoi_integer {t : Bytes} {z : Int} (h : Integer t z) : atoi t = z := by
  rcases h with ⟨n, hn, rfl⟩ | ⟨r, n, rfl, hn, rfl⟩
  · exact atoi_number hn
  · obtain ⟨_, hd, rfl⟩ := hn
    unfold atoi
    rw [List.dropWhile_cons_of_neg (by decide)]
    show -((Str.decDigits 0 r : Nat) : Int) = _
    rw [decDigits_number _ _ hd]

theorem getInt_integer {dict : Option Dict} {doc : Option Doc} (h : Answers dict doc) {key : Bytes} (dflt z : Int)
    (hl : key.length ≤ 1024) (hz : Ini.hash (key.map fold) ≠ 0) (hc : (58 : UInt8) ∈ key)
    (hi : IntegerAt doc key dflt z) : getInt dict key dflt = .ok z := by
  rw [getInt_doc h dflt hl (.inl hz) hc]
  rcases hi with ⟨e, rfl⟩ | ⟨t, e, ht⟩
  · rw [e]
  · rw [e]
    dsimp only
    rw [atoi_integer ht]

theorem getBool_answer {dict : Option Dict} {doc : Option Doc} (h : Answers dict doc) {key : Bytes} (dflt b : Bool)
    (hl : key.length ≤ 1024) (hz : Ini.hash (key.map fold) ≠ 0) (hc : (58 : UInt8) ∈ key)
    (ha : AnswerAt doc key dflt b) : getBool dict key dflt = .ok b := by
  have hk := h key hl (.inl hz) hc
  unfold getBool
  unfold AnswerAt at ha
  have yes : ∀ c : UInt8, c ∈ str "yY1tT" ↔ (c = 121 ∨ c = 89 ∨ c = 49 ∨ c = 116 ∨ c = 84) := by
    intro c
    rw [show str "yY1tT" = [121, 89, 49, 116, 84] from by decide]
    simp only [List.mem_cons, List.not_mem_nil, or_false]
  have no : ∀ c : UInt8, c ∈ str "nN0fF" ↔ (c = 110 ∨ c = 78 ∨ c = 48 ∨ c = 102 ∨ c = 70) := by
    intro c
    rw [show str "nN0fF" = [110, 78, 48, 102, 70] from by decide]
    simp only [List.mem_cons, List.not_mem_nil, or_false]
  have dec : ∀ b : Bool, decide ((if b then (1 : Int) else 0) ≠ 0) = b := by decide
  cases dict with
  | none =>
    have : Found.default = (match entry doc key with | none => .default | some v => .value (some v)) := by
      injection hk
    cases he : entry doc key with
    | none =>
      rw [he] at ha
      rw [show b = dflt from ha]
    | some v => rw [he] at this; cases this
  | some d =>
    have hk : getstring d key = _ := hk
    dsimp only
    unfold getboolean
    rw [hk, Outcome.ok_bind]
    cases he : entry doc key with
    | none =>
      rw [he] at ha
      dsimp only
      rw [Outcome.ok_bind, dec, show b = dflt from ha]
    | some v =>
      rw [he] at ha
      dsimp only
      cases v with
      | nil =>
        have ha : b = dflt := ha
        rw [if_neg (by decide), if_neg (by decide), Outcome.ok_bind, dec, ha]
      | cons c r =>
        have ha : (if c ∈ str "yY1tT" then b = true else if c ∈ str "nN0fF" then b = false else b = dflt) := ha
        have hx : (c :: r).headD 0 = c := rfl
        generalize (c :: r).headD 0 = x at hx ⊢
        rw [← hx] at ha
        by_cases h1 : x ∈ str "yY1tT"
        · rw [if_pos h1] at ha
          rw [if_pos ((yes x).1 h1), Outcome.ok_bind, ha]
          rfl
        · rw [if_neg h1] at ha
          rw [if_neg (fun h => h1 ((yes x).2 h))]
          by_cases h2 : x ∈ str "nN0fF"
          · rw [if_pos h2] at ha
            rw [if_pos ((no x).1 h2), Outcome.ok_bind, ha]
            rfl
          · rw [if_neg h2] at ha
            rw [if_neg (fun h => h2 ((no x).2 h)), Outcome.ok_bind, dec, ha]

theorem numeral_decimal {t : Bytes} : ∀ {n : Nat}, Numeral t n → decimal n = t := by
  induction t using List.reverseRecOn with
  | nil => intro n h; exact absurd rfl h.1.1
  | append_singleton r c ih =>
    intro n ⟨⟨_, hd, hn⟩, h0, h1⟩
    have hc := hd c (by simp)
    have hl := UInt8.le_iff_toNat_le.1 hc.1
    have hu := UInt8.le_iff_toNat_le.1 hc.2
    simp at hl hu
    rw [List.foldl_append, List.foldl_cons, List.foldl_nil] at hn
    have back : ∀ k, k = c.toNat - 48 → UInt8.ofNat (48 + k) = c := by
      rintro k rfl
      apply UInt8.toNat_inj.1
      rw [UInt8.toNat_ofNat']
      have := c.toNat_lt
      omega
    cases r with
    | nil =>
      have hn : n = c.toNat - 48 := by simpa using hn
      rw [decimal, if_pos (by omega), back n hn]
      rfl
    | cons a r =>
      have hm : Numeral (a :: r) ((a :: r).foldl (fun a c => 10 * a + (c.toNat - 48)) 0) := by
        have ha := hd a (by simp)
        have hne : n ≠ 0 := by
          intro e
          have := h0 e
          simp at this
        have hhead := h1 hne
        refine ⟨⟨by simp, fun c hc => hd c (by simp at hc ⊢; tauto), rfl⟩, ?_, ?_⟩
        · intro e
          exfalso
          have grow : ∀ (l : Bytes) (x : Nat), x ≤ l.foldl (fun a c => 10 * a + (c.toNat - 48)) x := by
            intro l
            induction l with
            | nil => intro x; exact Nat.le_refl _
            | cons y l ih => intro x; rw [List.foldl_cons]; exact Nat.le_trans (by omega) (ih _)
          rw [List.foldl_cons] at e
          have := grow r (10 * 0 + (a.toNat - 48))
          have hla := UInt8.le_iff_toNat_le.1 ha.1
          simp at hla
          have ha48 : a.toNat = 48 := by omega
          apply hhead
          have : a = 48 := UInt8.toNat_inj.1 ha48
          rw [this]
          rfl
        · intro _
          simpa using hhead
      have ih := ih hm
      generalize hv : (a :: r).foldl (fun a c => 10 * a + (c.toNat - 48)) 0 = v at hm ih hn
      have hpos : v ≠ 0 := by
        intro e
        have := hm.2.1 e
        rw [this] at h1 hd
        by_cases hz : n = 0
        · have := h0 hz
          simp at this
        · exact h1 hz rfl
      rw [decimal, if_neg (by omega), show n / 10 = v by omega, ih, back (n % 10) (by omega)]

end Msat.Thornsds
