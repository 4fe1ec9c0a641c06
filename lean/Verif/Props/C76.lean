import Mathlib.Tactic.NormNum
import Mathlib.Tactic.Ring
import Mathlib.Tactic.FieldSimp
import Verif.Spec.HriInterp
import Verif.Lemmas.HriHeader
import Verif.Lemmas.Outcome
import Verif.Props.C34

/-
C76: the interpretation data of an HRI file.
-/
namespace Msat.Props
open Msat Msat.Hri Msat.HriSpec

/-- The value read for a member is what its bytes `bs` mean.  For IBM numbers see C34. -/
def Means (f : Field) (bs : Bytes) (v : Value) : Prop :=
  match f with
  | .text _ places => isText bs → v = .num ((textNumber bs : ℚ) / 10 ^ places)
  | .ibm8 => ∃ n, v = .bits n ∧ (number bs / 2 ^ 32 % 2 ^ 24 ≠ 0 →
      ∃ d, ieee8 n = some d ∧ |d| ≤ |ibm8 (number bs)| ∧ |ibm8 (number bs)| - |d| < |d| / 2 ^ 52 ∧ 0 ≤ d * ibm8 (number bs))
  | .ibm4 => ∃ n, v = .bits n ∧
      ((2 : ℚ) ^ (-126 : ℤ) ≤ |ibm4 (number bs)| → |ibm4 (number bs)| < (2 : ℚ) ^ (128 : ℤ) → ieee4 n = some (ibm4 (number bs))) ∧
      (number bs % 2 ^ 31 = 0 → ieee4 n = some 0)
  | .int4 => v = .int (twos 32 (number bs))
  | .int2 => v = .int (twos 16 (number bs))
  | .flag => v = .flag (bs ≠ [0])

/-- How the code reads a type. -/
def kindOf : Field → Option Kind
  | .text 6 3 => some .r4c6 | .text 3 2 => some .r4c3 | .text 3 1 => some .r4fc3 | .text 5 2 => some .r4c5 | .text 5 5 => some .r4fc5
  | .text 3 0 => some .i2c3 | .text 2 0 => some .i2c2 | .text _ _ => none
  | .ibm8 => some .r8 | .ibm4 => some .r4 | .int4 => some .i4 | .int2 => some .i2 | .flag => some .flag

/-- The digit of a character of text. -/
theorem digit_text (c : UInt8) (h : c = 32 ∨ (48 ≤ c.toNat ∧ c.toNat ≤ 57)) :
    digit c = ((if c = 32 then 0 else c.toNat - 48 : Nat) : ℤ) := by
  unfold digit
  by_cases hc : c = 32
  · rw [if_pos hc, if_pos hc]; rfl
  · have := h.resolve_left hc
    rw [if_neg hc, if_neg hc, if_pos (by omega)]
    omega

theorem reads_text (kind : Kind) (ws : List Rat) (n p : Nat) (b : Bytes) (hn : ws.length = n) (hb : n ≤ b.length)
    (hk : ∀ b, readValue 4 false kind b = (do pure (.num (← weighted ws b))))
    (hw : ∀ cs : List ℚ, cs.length = n → (List.zipWith (· * ·) cs ws).sum = (cs.foldl (fun m d => m * 10 + d) 0) / 10 ^ p) :
    ∃ v, readValue 4 false kind b = .ok v ∧ Means (.text n p) (b.take n) v := by
  have hwt : ∀ (ws : List Rat) (b : Bytes), ws.length ≤ b.length →
      weighted ws b = .ok (List.zipWith (· * ·) ((b.take ws.length).map fun c => (digit c : ℚ)) ws).sum := by
    intro ws
    induction ws with
    | nil => intro b _; simp [weighted]
    | cons w ws ih =>
      intro b hb
      cases b with
      | nil => simp at hb
      | cons c cs =>
        rw [weighted, ih cs (by simpa using hb), Outcome.ok_bind]
        simp
  refine ⟨_, by rw [hk, hwt ws b (by omega), Outcome.ok_bind]; rfl, ?_⟩
  intro ht
  rw [hn, hw _ (by rw [List.length_map, List.length_take]; omega)]
  congr 2
  have : ∀ (l : Bytes) (acc : Nat), isText l → (l.map fun c => (digit c : ℚ)).foldl (fun m d => m * 10 + d) (acc : ℚ) =
      ((l.foldl (fun n c => n * 10 + (if c = 32 then 0 else c.toNat - 48)) acc : Nat) : ℚ) := by
    intro l
    induction l with
    | nil => intro acc _; rfl
    | cons c l ih =>
      intro acc hl
      rw [List.map_cons, List.foldl_cons, List.foldl_cons, ← ih _ (fun c hc => hl c (List.mem_cons_of_mem _ hc)),
        digit_text c (hl c List.mem_cons_self)]
      push_cast
      rfl
  have := this (b.take n) 0 ht
  rw [Nat.cast_zero] at this
  exact this

theorem list_of_length {α} {n : Nat} (cs : List α) (h : cs.length = n + 1) : ∃ c cs', cs = c :: cs' ∧ cs'.length = n := by
  cases cs with
  | nil => simp at h
  | cons c cs => exact ⟨c, cs, rfl, by simpa using h⟩

theorem number_take2 (b0 b1 : UInt8) (t : Bytes) : number ((b0 :: b1 :: t).take 2) = b0.toNat * 256 + b1.toNat := by
  simp [number]

theorem bytes4_of (b0 b1 b2 b3 : UInt8) : bytes4 (((b0.toNat * 256 + b1.toNat) * 256 + b2.toNat) * 256 + b3.toNat) = [b0, b1, b2, b3] := by
  have h0 := b0.toNat_lt
  have h1 := b1.toNat_lt
  have h2 := b2.toNat_lt
  have h3 := b3.toNat_lt
  have e : ∀ (x : Nat) (b : UInt8), x % 256 = b.toNat → UInt8.ofNat x = b := by
    intro x b h
    apply UInt8.toNat_inj.mp
    rw [UInt8.toNat_ofNat']
    exact h
  unfold bytes4
  congr 1
  · exact e _ _ (by omega)
  congr 1
  · exact e _ _ (by omega)
  congr 1
  · exact e _ _ (by omega)
  congr 1
  exact e _ _ (by omega)

/-- Every type is read from its own bytes, with its own meaning. -/
theorem reads_field (f : Field) (k : Kind) (hk : kindOf f = some k) (b : Bytes) (hb : f.bytes ≤ b.length) :
    ∃ v, readValue 4 false k b = .ok v ∧ Means f (b.take f.bytes) v := by
  unfold kindOf at hk
  split at hk
  all_goals first | (injection hk with hk; subst hk) | cases hk
  · refine reads_text _ _ 6 3 b rfl hb (fun _ => rfl) fun cs g0 => ?_
    obtain ⟨c0, cs1, rfl, g1⟩ := list_of_length cs g0
    obtain ⟨c1, cs2, rfl, g2⟩ := list_of_length cs1 g1
    obtain ⟨c2, cs3, rfl, g3⟩ := list_of_length cs2 g2
    obtain ⟨c3, cs4, rfl, g4⟩ := list_of_length cs3 g3
    obtain ⟨c4, cs5, rfl, g5⟩ := list_of_length cs4 g4
    obtain ⟨c5, cs6, rfl, g6⟩ := list_of_length cs5 g5
    obtain rfl := List.length_eq_zero_iff.mp g6
    simp only [List.zipWith_cons_cons, List.zipWith_nil_right, List.sum_cons, List.sum_nil, List.foldl_cons,
      List.foldl_nil]
    ring
  · refine reads_text _ _ 3 2 b rfl hb (fun _ => rfl) fun cs g0 => ?_
    obtain ⟨c0, cs1, rfl, g1⟩ := list_of_length cs g0
    obtain ⟨c1, cs2, rfl, g2⟩ := list_of_length cs1 g1
    obtain ⟨c2, cs3, rfl, g3⟩ := list_of_length cs2 g2
    obtain rfl := List.length_eq_zero_iff.mp g3
    simp only [List.zipWith_cons_cons, List.zipWith_nil_right, List.sum_cons, List.sum_nil, List.foldl_cons,
      List.foldl_nil]
    ring
  · refine reads_text _ _ 3 1 b rfl hb (fun _ => rfl) fun cs g0 => ?_
    obtain ⟨c0, cs1, rfl, g1⟩ := list_of_length cs g0
    obtain ⟨c1, cs2, rfl, g2⟩ := list_of_length cs1 g1
    obtain ⟨c2, cs3, rfl, g3⟩ := list_of_length cs2 g2
    obtain rfl := List.length_eq_zero_iff.mp g3
    simp only [List.zipWith_cons_cons, List.zipWith_nil_right, List.sum_cons, List.sum_nil, List.foldl_cons,
      List.foldl_nil]
    ring
  · refine reads_text _ _ 5 2 b rfl hb (fun _ => rfl) fun cs g0 => ?_
    obtain ⟨c0, cs1, rfl, g1⟩ := list_of_length cs g0
    obtain ⟨c1, cs2, rfl, g2⟩ := list_of_length cs1 g1
    obtain ⟨c2, cs3, rfl, g3⟩ := list_of_length cs2 g2
    obtain ⟨c3, cs4, rfl, g4⟩ := list_of_length cs3 g3
    obtain ⟨c4, cs5, rfl, g5⟩ := list_of_length cs4 g4
    obtain rfl := List.length_eq_zero_iff.mp g5
    simp only [List.zipWith_cons_cons, List.zipWith_nil_right, List.sum_cons, List.sum_nil, List.foldl_cons,
      List.foldl_nil]
    ring
  · refine reads_text _ _ 5 5 b rfl hb (fun _ => rfl) fun cs g0 => ?_
    obtain ⟨c0, cs1, rfl, g1⟩ := list_of_length cs g0
    obtain ⟨c1, cs2, rfl, g2⟩ := list_of_length cs1 g1
    obtain ⟨c2, cs3, rfl, g3⟩ := list_of_length cs2 g2
    obtain ⟨c3, cs4, rfl, g4⟩ := list_of_length cs3 g3
    obtain ⟨c4, cs5, rfl, g5⟩ := list_of_length cs4 g4
    obtain rfl := List.length_eq_zero_iff.mp g5
    simp only [List.zipWith_cons_cons, List.zipWith_nil_right, List.sum_cons, List.sum_nil, List.foldl_cons,
      List.foldl_nil]
    ring
  · refine reads_text _ _ 3 0 b rfl hb (fun _ => rfl) fun cs g0 => ?_
    obtain ⟨c0, cs1, rfl, g1⟩ := list_of_length cs g0
    obtain ⟨c1, cs2, rfl, g2⟩ := list_of_length cs1 g1
    obtain ⟨c2, cs3, rfl, g3⟩ := list_of_length cs2 g2
    obtain rfl := List.length_eq_zero_iff.mp g3
    simp only [List.zipWith_cons_cons, List.zipWith_nil_right, List.sum_cons, List.sum_nil, List.foldl_cons,
      List.foldl_nil]
    ring
  · refine reads_text _ _ 2 0 b rfl hb (fun _ => rfl) fun cs g0 => ?_
    obtain ⟨c0, cs1, rfl, g1⟩ := list_of_length cs g0
    obtain ⟨c1, cs2, rfl, g2⟩ := list_of_length cs1 g1
    obtain rfl := List.length_eq_zero_iff.mp g2
    simp only [List.zipWith_cons_cons, List.zipWith_nil_right, List.sum_cons, List.sum_nil, List.foldl_cons,
      List.foldl_nil]
    ring
  · replace hb : 8 ≤ b.length := hb
    obtain ⟨b0, t0, rfl, h0⟩ := cons_of_length hb
    obtain ⟨b1, t1, rfl, h1⟩ := cons_of_length h0
    obtain ⟨b2, t2, rfl, h2⟩ := cons_of_length h1
    obtain ⟨b3, t3, rfl, h3⟩ := cons_of_length h2
    obtain ⟨b4, t4, rfl, h4⟩ := cons_of_length h3
    obtain ⟨b5, t5, rfl, h5⟩ := cons_of_length h4
    obtain ⟨b6, t6, rfl, h6⟩ := cons_of_length h5
    obtain ⟨b7, t7, rfl, h7⟩ := cons_of_length h6
    obtain ⟨w, hw⟩ : ∃ w, w = number ((b0 :: b1 :: b2 :: b3 :: b4 :: b5 :: b6 :: b7 :: t7).take Field.ibm8.bytes) := ⟨_, rfl⟩
    have hw' : w = ((((b0.toNat * 256 + b1.toNat) * 256 + b2.toNat) * 256 + b3.toNat) * 2 ^ 32 +
        (((b4.toNat * 256 + b5.toNat) * 256 + b6.toNat) * 256 + b7.toNat)) := by
      rw [hw]
      simp only [number, Field.bytes, List.take_succ_cons, List.take_zero, List.foldl_cons, List.foldl_nil, Nat.zero_mul, Nat.zero_add]
      omega
    have l0 := b0.toNat_lt
    have l1 := b1.toNat_lt
    have l2 := b2.toNat_lt
    have l3 := b3.toNat_lt
    have l4 := b4.toNat_lt
    have l5 := b5.toNat_lt
    have l6 := b6.toNat_lt
    have l7 := b7.toNat_lt
    have hd : w / 2 ^ 32 = ((b0.toNat * 256 + b1.toNat) * 256 + b2.toNat) * 256 + b3.toNat := by omega
    have hm : w % 2 ^ 32 = ((b4.toNat * 256 + b5.toNat) * 256 + b6.toNat) * 256 + b7.toNat := by omega
    have hr := C34_double_read_partial false w (by omega) t7
    rw [hd, hm, bytes4_of, bytes4_of] at hr
    simp only [List.cons_append, List.nil_append] at hr
    refine ⟨.bits (r8Of w), ?_, r8Of w, rfl, ?_⟩
    · unfold readValue
      dsimp only
      rw [hr]
      rfl
    · rw [← hw]
      exact C34_double_partial w
  · replace hb : 4 ≤ b.length := hb
    obtain ⟨b0, t0, rfl, h0⟩ := cons_of_length hb
    obtain ⟨b1, t1, rfl, h1⟩ := cons_of_length h0
    obtain ⟨b2, t2, rfl, h2⟩ := cons_of_length h1
    obtain ⟨b3, t3, rfl, h3⟩ := cons_of_length h2
    obtain ⟨w, hw⟩ : ∃ w, w = number ((b0 :: b1 :: b2 :: b3 :: t3).take Field.ibm4.bytes) := ⟨_, rfl⟩
    have hw' : w = ((b0.toNat * 256 + b1.toNat) * 256 + b2.toNat) * 256 + b3.toNat := by
      rw [hw]
      simp only [number, Field.bytes, List.take_succ_cons, List.take_zero, List.foldl_cons, List.foldl_nil, Nat.zero_mul, Nat.zero_add]
    have l0 := b0.toNat_lt
    have l1 := b1.toNat_lt
    have l2 := b2.toNat_lt
    have l3 := b3.toNat_lt
    have hr := C34_read_partial false w (by omega) t3
    rw [hw', bytes4_of, ← hw'] at hr
    simp only [List.cons_append, List.nil_append] at hr
    refine ⟨.bits (r4Bits w), ?_, r4Bits w, rfl, ?_, ?_⟩
    · unfold readValue
      dsimp only
      rw [hr]
      rfl
    · rw [← hw]
      exact C34_exact_partial w
    · rw [← hw]
      exact fun h => (C34_zero w h).1
  · replace hb : 4 ≤ b.length := hb
    obtain ⟨b0, t0, rfl, h0⟩ := cons_of_length hb
    obtain ⟨b1, t1, rfl, h1⟩ := cons_of_length h0
    obtain ⟨b2, t2, rfl, h2⟩ := cons_of_length h1
    obtain ⟨b3, t3, rfl, h3⟩ := cons_of_length h2
    refine ⟨_, rfl, ?_⟩
    have hdet : detectBig false = false := by decide
    show Value.int _ = Value.int _
    simp only [hdet, Bool.false_eq_true, if_false, twos, number, Field.bytes, List.take_succ_cons, List.take_zero, List.foldl_cons, List.foldl_nil, load,
      List.reverse_cons, List.reverse_nil, List.nil_append, List.cons_append, Nat.zero_mul, Nat.zero_add, Nat.reduceSub, Nat.cast_ite]
  · replace hb : 2 ≤ b.length := hb
    obtain ⟨b0, t0, rfl, h0⟩ := cons_of_length hb
    obtain ⟨b1, t1, rfl, h1⟩ := cons_of_length h0
    refine ⟨_, rfl, ?_⟩
    have hdet : detectBig false = false := by decide
    show Value.int _ = Value.int _
    simp only [hdet, Bool.false_eq_true, if_false, twos, number, Field.bytes, List.take_succ_cons, List.take_zero, List.foldl_cons, List.foldl_nil, load,
      List.reverse_cons, List.reverse_nil, List.nil_append, List.cons_append, Nat.zero_mul, Nat.zero_add, Nat.reduceSub, Nat.cast_ite]
  · replace hb : 1 ≤ b.length := hb
    obtain ⟨b0, t0, rfl, h0⟩ := cons_of_length hb
    refine ⟨_, rfl, ?_⟩
    show Value.flag _ = Value.flag _
    simp [Field.bytes]

/-- The value of a member is under its name. -/
theorem readMembers_lookup (hsi : Bytes) : ∀ (ms : List (String × Kind × Nat)) (vs : List (String × Value)),
    readInterp.readMembers 4 false hsi ms = .ok vs → (ms.map (·.1)).Nodup → ∀ name kind off, (name, kind, off) ∈ ms →
    ∃ v, readValue 4 false kind (hsi.drop off) = .ok v ∧ vs.lookup name = some v
  | [], _, _, _, _, _, _, hm => by cases hm
  | (n, k, o) :: ms, vs, h, hn, name, kind, off, hm => by
    unfold readInterp.readMembers at h
    obtain ⟨v, hv, h⟩ := Outcome.of_bind_ok h
    obtain ⟨vs', hvs, h⟩ := Outcome.of_bind_ok h
    injection h with h
    subst h
    rw [List.map_cons, List.nodup_cons] at hn
    rcases List.mem_cons.mp hm with e | hm'
    · injection e with e1 e2
      injection e2 with e2 e3
      subst e1 e2 e3
      exact ⟨v, hv, by simp⟩
    · have hne : name ≠ n := by
        intro e
        subst e
        exact hn.1 (List.mem_map.mpr ⟨_, hm', rfl⟩)
      obtain ⟨v', h1, h2⟩ := readMembers_lookup hsi ms vs' hvs hn.2 name kind off hm'
      refine ⟨v', h1, ?_⟩
      rw [List.lookup_cons, beq_false_of_ne hne]
      exact h2

/-- The members are read from where they are, but one. -/
theorem members_placed : ∀ p ∈ places 0 interpLayout, p.1 ≠ "imag.snmxwp_ir" → ∃ k, kindOf p.2.2 = some k ∧ (p.1, k, p.2.1) ∈ members := by
  have : ∀ p ∈ places 0 interpLayout, p.1 ≠ "imag.snmxwp_ir" →
      (match kindOf p.2.2 with | some k => decide ((p.1, k, p.2.1) ∈ members) | none => false) = true := by decide +kernel
  intro p hp hne
  have := this p hp hne
  split at this
  · rename_i k hk
    exact ⟨k, hk, of_decide_eq_true this⟩
  · cases this

theorem places_inside : ∀ p ∈ places 0 interpLayout, p.2.1 + p.2.2.bytes ≤ 560 := by decide +kernel

/-- All the interpretation data are read: every member but `snmxwp_ir` has the value that its own bytes mean, and the message is the last
800 bytes.  Missing for C76: `snmxwp_ir` (see `C76_violated_snmxwp`); numbers in text with other characters than digits and spaces (see
`C76_violated_minus`); machines on which `unsigned long` has eight bytes (see C34 and C73). -/
theorem C76_members_partial (hsi : Bytes) (h : hsi.length = 1360) :
    ∃ vs, readInterp 4 false hsi = .ok (vs, hsi.drop 560) ∧ vs.map (·.1) = (places 0 interpLayout).map (·.1) ∧
      ∀ p ∈ places 0 interpLayout, p.1 ≠ "imag.snmxwp_ir" → ∃ v, vs.lookup p.1 = some v ∧ Means p.2.2 ((hsi.drop p.2.1).take p.2.2.bytes) v := by
  obtain ⟨vs, hvs⟩ := readMembers_ok hsi members (by rw [h]; exact members_inside)
  refine ⟨vs, ?_, ?_, ?_⟩
  · unfold readInterp
    rw [hvs, Outcome.ok_bind, if_pos (by omega), List.take_of_length_le (by rw [List.length_drop]; omega)]
    rfl
  · have hn : ∀ (ms : List (String × Kind × Nat)) (vs : List (String × Value)), readInterp.readMembers 4 false hsi ms = .ok vs →
        vs.map (·.1) = ms.map (·.1) := by
      intro ms
      induction ms with
      | nil => intro vs h; injection h with h; subst h; rfl
      | cons m ms ih =>
        intro vs h
        obtain ⟨n, k, o⟩ := m
        unfold readInterp.readMembers at h
        obtain ⟨v, hv, h⟩ := Outcome.of_bind_ok h
        obtain ⟨vs', hvs, h⟩ := Outcome.of_bind_ok h
        injection h with h
        subst h
        rw [List.map_cons, List.map_cons, ih vs' hvs]
    rw [hn members vs hvs]
    decide +kernel
  · intro p hp hne
    obtain ⟨k, hk, hm⟩ := members_placed p hp hne
    obtain ⟨v, hv, hl⟩ := readMembers_lookup hsi members vs hvs (by decide +kernel) _ _ _ hm
    have hi := places_inside p hp
    obtain ⟨v', hv', hmeans⟩ := reads_field p.2.2 k hk (hsi.drop p.2.1) (by rw [List.length_drop]; omega)
    rw [hv] at hv'
    injection hv' with hv'
    subst hv'
    exact ⟨v, hl, hmeans⟩

/-- The layout has 560 bytes, and as many members as are read, with different names; `calir` is the one at 51, with five decimal places. -/
example : layoutSize interpLayout = 560 ∧ (places 0 interpLayout).length = (members).length ∧
    ((places 0 interpLayout).map (·.1)).Nodup ∧ ("cal.calir", 51, Field.text 5 5) ∈ places 0 interpLayout := by decide +kernel

/-- `" 1234"` in five characters with two decimal places is 12.34. -/
example : Means (.text 5 2) [32, 49, 50, 51, 52] (.num (1234 / 100)) ∧ isText [32, 49, 50, 51, 52] := by
  constructor
  · intro _
    rw [show textNumber [32, 49, 50, 51, 52] = 1234 from rfl]
    norm_num
  · unfold isText; decide

/-- `snmxwp_ir` has the bytes of `snmxwp_v1`: it always has its value, and its own bytes are not used. -/
theorem C76_violated_snmxwp (hsi : Bytes) (h : hsi.length = 1360) :
    ("imag.snmxwp_ir", 464, Field.int2) ∈ places 0 interpLayout ∧ ("imag.snmxwp_v1", 466, Field.int2) ∈ places 0 interpLayout ∧
    ∃ vs msg, readInterp 4 false hsi = .ok (vs, msg) ∧ vs.lookup "imag.snmxwp_ir" = some (.int (twos 16 (number ((hsi.drop 466).take 2)))) ∧
      vs.lookup "imag.snmxwp_ir" = vs.lookup "imag.snmxwp_v1" := by
  refine ⟨by decide +kernel, by decide +kernel, ?_⟩
  obtain ⟨vs, hvs⟩ := readMembers_ok hsi members (by rw [h]; exact members_inside)
  obtain ⟨v, hv, hl⟩ := readMembers_lookup hsi members vs hvs (by decide +kernel) "imag.snmxwp_ir" .i2 466 (by decide +kernel)
  obtain ⟨v', hv', hl'⟩ := readMembers_lookup hsi members vs hvs (by decide +kernel) "imag.snmxwp_v1" .i2 466 (by decide +kernel)
  obtain ⟨v'', hv'', hm⟩ := reads_field .int2 .i2 rfl (hsi.drop 466) (by rw [List.length_drop]; show 2 ≤ _; omega)
  rw [hv] at hv' hv''
  injection hv' with hv'
  injection hv'' with hv''
  refine ⟨vs, (hsi.drop 560).take 800, ?_, ?_, ?_⟩
  · unfold readInterp
    rw [hvs, Outcome.ok_bind, if_pos (by omega)]
    rfl
  · rw [hl, hv'', show v'' = _ from hm]
    rfl
  · rw [hl, hl', hv']

/-- A sign is taken for a digit: `"-12"` is read as -288. -/
theorem C76_violated_minus (rest : Bytes) : i2FromChar3 ([45, 49, 50] ++ rest) = .ok (-288) := by
  show Outcome.ok ((digit 45 : ℚ) * 100 + ((digit 49 : ℚ) * 10 + ((digit 50 : ℚ) * 1 + 0))) = _
  rw [show digit 45 = -3 by decide, show digit 49 = 1 by decide, show digit 50 = 2 by decide]
  norm_num

end Msat.Props
