import Verif.Model.OpenMtpHeader
import Verif.Spec.OpenMtpHeader
import Verif.Lemmas.OpenMTP
import Verif.Lemmas.Bytes
import Mathlib.Data.List.Forall2

/-
The members of the binary header of OpenMTP files.
-/
namespace Msat.MtpHeaderLemmas
open Msat Machine Spec MtpHeader MtpHeaderSpec

/-- Number of bytes of members. -/
def size : List Member → Nat
  | [] => 0
  | m :: ms => m.size + size ms

/-- Where a member is. -/
def locate : List Member → String → Option (Nat × Member)
  | [], _ => none
  | m :: ms, name => if m.name = name then some (0, m) else (locate ms name).map fun p => (m.size + p.1, p.2)

theorem member_length (m : Member) (c : Content) : (m.encode c).length = m.size := by
  unfold Member.encode Member.size
  rw [List.length_flatMap]
  simp only [encBE_length]
  rw [List.map_const', List.sum_replicate_nat, List.length_range]

theorem encode_length (ms : List Member) (c : Content) : (encode ms c).length = size ms := by
  induction ms with
  | nil => rfl
  | cons m ms ih =>
    show (m.encode c ++ encode ms c).length = _
    rw [List.length_append, member_length, ih]
    rfl

theorem encode_append (a b : List Member) (c : Content) : encode (a ++ b) c = encode a c ++ encode b c := by
  unfold encode
  rw [List.flatMap_append]

theorem encode_congr {ms : List Member} {c d : Content} (h : ∀ m ∈ ms, ∀ i, c m.name i = d m.name i) :
    encode ms c = encode ms d := by
  unfold encode
  apply List.flatMap_congr
  intro m hm
  unfold Member.encode
  apply List.flatMap_congr
  intro i _
  rw [h m hm i]

theorem encBE_zero (n : Nat) : encBE n 0 = List.replicate n 0 := by
  induction n with
  | zero => rfl
  | succ n ih =>
    show UInt8.ofNat (0 / 256 ^ n) :: encBE n 0 = _
    rw [ih, Nat.zero_div]
    rfl

theorem encode_zero {ms : List Member} {c : Content} (h : ∀ m ∈ ms, ∀ i, c m.name i = 0) :
    encode ms c = List.replicate (size ms) 0 := by
  rw [List.eq_replicate_iff]
  refine ⟨encode_length ms c, ?_⟩
  intro b hb
  unfold encode at hb
  rw [List.mem_flatMap] at hb
  obtain ⟨m, hm, hb⟩ := hb
  unfold Member.encode at hb
  rw [List.mem_flatMap] at hb
  obtain ⟨i, _, hb⟩ := hb
  rw [h m hm i] at hb
  have : pattern (8 * m.kind.width) 0 = 0 := by unfold pattern; simp
  rw [this, encBE_zero] at hb
  exact (List.mem_replicate.mp hb).2

theorem range_flatMap_take {f : Nat → Bytes} {w : Nat} (hw : ∀ i, (f i).length = w) (n : Nat) (tail : Bytes) :
    ∀ i, i < n → (((List.range n).flatMap f ++ tail).drop (i * w)).take w = f i := by
  induction n generalizing tail with
  | zero => intro i hi; exact absurd hi (by omega)
  | succ n ih =>
    intro i hi
    rw [List.range_succ, List.flatMap_append, List.append_assoc]
    have hl : ((List.range n).flatMap f).length = n * w := by
      rw [List.length_flatMap]
      simp only [hw]
      rw [List.map_const', List.sum_replicate_nat, List.length_range]
    by_cases h : i < n
    · exact ih _ i h
    · have : i = n := by omega
      subst this
      rw [List.drop_append, hl, Nat.sub_self, List.drop_zero, List.drop_eq_nil_of_le (by omega), List.nil_append]
      rw [show [i].flatMap f = f i by simp, List.take_append_of_le_length (by rw [hw]), ← hw i, List.take_length]

theorem locate_spec {ms : List Member} {name : String} {s : Nat} {m : Member} (h : locate ms name = some (s, m))
    (c : Content) (tail : Bytes) : m.name = name ∧ m ∈ ms ∧ ∀ i < m.count,
      ((encode ms c ++ tail).drop (s + i * m.kind.width)).take m.kind.width =
        encBE m.kind.width (pattern (8 * m.kind.width) (c name i)) := by
  induction ms generalizing s with
  | nil => cases h
  | cons a ms ih =>
    unfold locate at h
    by_cases hn : a.name = name
    · rw [if_pos hn] at h
      injection h with h
      injection h with h1 h2
      subst h1 h2
      refine ⟨hn, List.mem_cons_self, fun i hi => ?_⟩
      show ((a.encode c ++ encode ms c ++ tail).drop _).take _ = _
      rw [List.append_assoc, Nat.zero_add, ← hn]
      exact range_flatMap_take (f := fun i => encBE a.kind.width (pattern (8 * a.kind.width) (c a.name i)))
        (fun i => encBE_length _ _) a.count _ i hi
    · rw [if_neg hn] at h
      cases hl : locate ms name with
      | none => rw [hl] at h; cases h
      | some p =>
        rw [hl] at h
        injection h with h
        injection h with h1 h2
        subst h1 h2
        obtain ⟨e1, e2, e3⟩ := ih hl
        refine ⟨e1, List.mem_cons_of_mem _ e2, fun i hi => ?_⟩
        show ((a.encode c ++ encode ms c ++ tail).drop _).take _ = _
        rw [List.append_assoc, Nat.add_assoc, ← member_length a c, ← List.drop_drop, drop_prefix]
        exact e3 i hi

/-! ### Decoding -/

/-- The type a decoder is for. -/
def kindOf : Get → Kind
  | .byte | .flag => .byte
  | .int2 => .i2
  | .int4 => .i4
  | .float4 => .f4
  | .float8 => .f8

theorem take_getD {l : Bytes} {off : Nat} : ∀ (n : Nat), off + n ≤ l.length →
    (l.drop off).take n = (List.range n).map fun k => l.getD (off + k) 0 := by
  intro n h
  apply List.ext_getElem?
  intro k
  by_cases hk : k < n
  · rw [List.getElem?_take_of_lt hk, List.getElem?_drop, List.getElem?_map, List.getElem?_range hk]
    show _ = some (l.getD (off + k) 0)
    rw [List.getElem?_eq_getElem (by omega), List.getD_eq_getElem?_getD, List.getElem?_eq_getElem (by omega)]
    rfl
  · rw [List.getElem?_eq_none (by rw [List.length_take]; omega),
      List.getElem?_eq_none (by rw [List.length_map, List.length_range]; omega)]

theorem pattern_nat {w : Nat} {v : Int} (h0 : 0 ≤ v) (h1 : v < 2 ^ w) : (pattern w v : Int) = v := by
  unfold pattern
  rw [Int.emod_eq_of_lt h0 h1]
  omega

theorem value_spec {g : Get} {header : Bytes} {off : Nat} {v : Int} (hl : off + (kindOf g).width ≤ header.length)
    (hb : (header.drop off).take (kindOf g).width = encBE (kindOf g).width (pattern (8 * (kindOf g).width) v))
    (hf : (kindOf g).Fits v) : g.value header off = if g = .flag then (if v ≠ 0 then 1 else 0) else v := by
  rw [take_getD _ hl] at hb
  have hv : beVal ((List.range (kindOf g).width).map fun k => header.getD (off + k) 0) = pattern (8 * (kindOf g).width) v := by
    rw [hb]
    apply beVal_encBE_of_lt
    have := pattern_lt (8 * (kindOf g).width) v
    rw [show (256 : Nat) = 2 ^ 8 from rfl, ← pow_mul]
    exact this
  clear hb
  cases g with
  | byte =>
    simp only [kindOf, Kind.width, List.range_one, List.map_cons, List.map_nil] at hv
    simp only [kindOf, Kind.Fits] at hf
    have := pattern_nat hf.1 hf.2
    unfold Get.value
    simp only [beVal, Nat.add_zero, List.length_nil, pow_zero, mul_one] at hv ⊢
    rw [if_neg (by decide), hv, this]
  | flag =>
    simp only [kindOf, Kind.width, List.range_one, List.map_cons, List.map_nil] at hv
    simp only [kindOf, Kind.Fits] at hf
    have := pattern_nat hf.1 hf.2
    unfold Get.value
    simp only [beVal, Nat.add_zero, List.length_nil, pow_zero, mul_one] at hv ⊢
    rw [if_pos trivial, hv]
    by_cases h : v = 0
    · subst h; rfl
    · rw [if_pos h, if_pos (by omega)]
  | int2 =>
    simp only [kindOf, Kind.Fits] at hf
    have e := getI2_eq .little (header.getD off 0) (header.getD (off + 1) 0)
    rw [chk_little] at e
    show MtpHeader.int2 header off = _
    unfold MtpHeader.int2
    rw [e]
    have : beVal [header.getD off 0, header.getD (off + 1) 0] = pattern 16 v := hv
    rw [this, signed_pattern (by decide) (by omega) (by omega)]
    rfl
  | int4 =>
    simp only [kindOf, Kind.Fits] at hf
    have e := getI4_eq .little (header.getD off 0) (header.getD (off + 1) 0) (header.getD (off + 2) 0) (header.getD (off + 3) 0)
    rw [chk_little] at e
    show Mtp.int4 header off = _
    unfold Mtp.int4
    rw [e]
    have : beVal [header.getD off 0, header.getD (off + 1) 0, header.getD (off + 2) 0, header.getD (off + 3) 0] = pattern 32 v := hv
    rw [this, signed_pattern (by decide) (by omega) (by omega)]
    rfl
  | float4 =>
    simp only [kindOf, Kind.Fits] at hf
    have e := getUI4_eq .little (header.getD off 0) (header.getD (off + 1) 0) (header.getD (off + 2) 0) (header.getD (off + 3) 0)
    rw [chk_little] at e
    show MtpHeader.float4 header off = _
    unfold MtpHeader.float4
    rw [e]
    have : beVal [header.getD off 0, header.getD (off + 1) 0, header.getD (off + 2) 0, header.getD (off + 3) 0] = pattern 32 v := hv
    rw [this, pattern_nat hf.1 hf.2]
    rfl
  | float8 =>
    simp only [kindOf, Kind.Fits] at hf
    have e := getUI8_eq .little (header.getD off 0) (header.getD (off + 1) 0) (header.getD (off + 2) 0) (header.getD (off + 3) 0)
      (header.getD (off + 4) 0) (header.getD (off + 5) 0) (header.getD (off + 6) 0) (header.getD (off + 7) 0)
    rw [chk_little] at e
    show MtpHeader.float8 header off = _
    unfold MtpHeader.float8
    rw [e]
    have : beVal [header.getD off 0, header.getD (off + 1) 0, header.getD (off + 2) 0, header.getD (off + 3) 0,
      header.getD (off + 4) 0, header.getD (off + 5) 0, header.getD (off + 6) 0, header.getD (off + 7) 0] = pattern 64 v := hv
    rw [this, pattern_nat hf.1 hf.2]
    rfl

/-! ### The header in memory -/

/-- All members. -/
def all : List Member := first ++ second ++ third ++ composite

/-- The header in memory. -/
def memory (c : Content) : Bytes := encode all (kept c)

theorem sizes : size first = 5175 ∧ size second = 2636 ∧ size third = 136704 ∧ size composite = 48484 := by decide +kernel

theorem memory_length (c : Content) : (memory c).length = 192999 := by
  unfold memory
  rw [encode_length]
  decide +kernel

theorem kept_first (c : Content) : encode first (kept c) = encode first c := by
  apply encode_congr
  intro m hm i
  have h : ∀ m ∈ first, m.name ∉ second.map (·.name) ∧ m.name ∉ composite.map (·.name) := by decide +kernel
  unfold kept
  rw [if_neg (fun e => (h m hm).1 e.2), if_neg (fun e => (h m hm).2 e.2)]

theorem kept_third (c : Content) : encode third (kept c) = encode third c := by
  apply encode_congr
  intro m hm i
  have h : ∀ m ∈ third, m.name ∉ second.map (·.name) ∧ m.name ∉ composite.map (·.name) := by decide +kernel
  unfold kept
  rw [if_neg (fun e => (h m hm).1 e.2), if_neg (fun e => (h m hm).2 e.2)]

theorem kept_second (c : Content) :
    encode second (kept c) = if 3 < c "Proc" 0 then List.replicate 2636 0 else encode second c := by
  by_cases h : 3 < c "Proc" 0
  · rw [if_pos h, ← sizes.2.1]
    apply encode_zero
    intro m hm i
    unfold kept
    rw [if_pos ⟨h, List.mem_map_of_mem hm⟩]
  · rw [if_neg h]
    apply encode_congr
    intro m hm i
    have h2 : ∀ m ∈ second, m.name ∉ composite.map (·.name) := by decide +kernel
    unfold kept
    rw [if_neg (fun e => h e.1), if_neg (fun e => h2 m hm e.2)]

theorem kept_composite (c : Content) :
    encode composite (kept c) = if c "Chan" 0 = 3 then encode composite c else List.replicate 48484 0 := by
  have h2 : ∀ m ∈ composite, m.name ∉ second.map (·.name) := by decide +kernel
  by_cases h : c "Chan" 0 = 3
  · rw [if_pos h]
    apply encode_congr
    intro m hm i
    unfold kept
    rw [if_neg (fun e => h2 m hm e.2), if_neg (fun e => e.1 h)]
  · rw [if_neg h, ← sizes.2.2.2]
    apply encode_zero
    intro m hm i
    unfold kept
    rw [if_neg (fun e => h2 m hm e.2), if_pos ⟨h, List.mem_map_of_mem hm⟩]

theorem zero_fits (k : Kind) : k.Fits 0 := by cases k <;> (unfold Kind.Fits; decide)

theorem kept_fits {c : Content} (hc : Fits c) : ∀ m ∈ all, ∀ i < m.count, m.kind.Fits (kept c m.name i) := by
  intro m hm i hi
  unfold kept
  by_cases h1 : 3 < c "Proc" 0 ∧ m.name ∈ second.map (·.name)
  · rw [if_pos h1]; exact zero_fits _
  rw [if_neg h1]
  by_cases h2 : c "Chan" 0 ≠ 3 ∧ m.name ∈ composite.map (·.name)
  · rw [if_pos h2]; exact zero_fits _
  rw [if_neg h2]
  refine hc m ?_ i hi
  unfold members
  unfold all at hm
  rw [List.mem_append] at hm ⊢
  rcases hm with hm | hm
  · exact .inl hm
  · refine .inr ?_
    have : c "Chan" 0 = 3 := by
      by_contra h
      exact h2 ⟨h, List.mem_map_of_mem hm⟩
    rw [if_pos this]
    exact hm

/-- A decoder agrees with a member. -/
def agrees (g : Get) (off step count : Nat) (name : String) : Bool :=
  match locate all name with
  | some (s, m) => decide (s = off) && decide (kindOf g = m.kind) && decide (count ≤ 1 ∨ step = m.kind.width) && decide (count ≤ m.count) &&
      decide (s + m.count * m.kind.width ≤ 192999)
  | none => false

theorem agrees_value {c : Content} (hc : Fits c) {g : Get} {off step count : Nat} {name : String}
    (h : agrees g off step count name = true) : ∀ i < count,
      g.value (memory c) (off + i * step) = if g = .flag then (if kept c name i ≠ 0 then 1 else 0) else kept c name i := by
  intro i hi
  unfold agrees at h
  cases hl : locate all name with
  | none => rw [hl] at h; cases h
  | some p =>
    obtain ⟨s, m⟩ := p
    rw [hl] at h
    simp only [Bool.and_eq_true, decide_eq_true_eq] at h
    obtain ⟨⟨⟨⟨h1, h2⟩, h3⟩, h4⟩, h5⟩ := h
    obtain ⟨e1, e2, e3⟩ := locate_spec hl (kept c) []
    have e3 := e3 i (by omega)
    rw [List.append_nil] at e3
    have hst : i * step = i * m.kind.width := by
      rcases h3 with h3 | h3
      · have : i = 0 := by omega
        subst this
        simp
      · rw [h3]
    have hmul : (i + 1) * m.kind.width ≤ m.count * m.kind.width := Nat.mul_le_mul_right _ (by omega)
    rw [Nat.add_mul, Nat.one_mul] at hmul
    have hfit := kept_fits hc m e2 i (by omega)
    rw [e1] at hfit
    rw [hst, ← h1]
    apply value_spec
    · rw [h2, memory_length]; omega
    · rw [h2]; exact e3
    · rw [h2]; exact hfit

theorem kept_proc (c : Content) : kept c "Proc" 0 = c "Proc" 0 := by
  unfold kept
  rw [if_neg (fun e => absurd e.2 (by decide +kernel)), if_neg (fun e => absurd e.2 (by decide +kernel))]

theorem kept_chan (c : Content) : kept c "Chan" 0 = c "Chan" 0 := by
  unfold kept
  rw [if_neg (fun e => absurd e.2 (by decide +kernel)), if_neg (fun e => absurd e.2 (by decide +kernel))]

theorem memory_proc {c : Content} (hc : Fits c) : Mtp.int4 (memory c) 36 = c "Proc" 0 := by
  have := agrees_value hc (g := .int4) (off := 36) (step := 0) (count := 1) (name := "Proc") (by decide +kernel) 0 (by decide)
  rw [← kept_proc c]
  exact this

theorem memory_chan {c : Content} (hc : Fits c) : Mtp.int4 (memory c) 40 = c "Chan" 0 := by
  have := agrees_value hc (g := .int4) (off := 40) (step := 0) (count := 1) (name := "Chan") (by decide +kernel) 0 (by decide)
  rw [← kept_chan c]
  exact this

theorem readAt_parts (a b z file : Bytes) (x : Bytes) (hx : x.length = z.length) {off n : Nat} (ha : a.length = off)
    (hn : x.length = n) : Mtp.readAt (a ++ z ++ b) off n (x ++ file) = .ok (a ++ x ++ b, file) := by
  subst ha hn
  rw [Mtp.readAt_ok (by simp only [List.length_append]; omega) (by simp)]
  have h1 : (a ++ z ++ b).take a.length = a := by rw [List.append_assoc, List.take_left']; rfl
  have h2 : (x ++ file).take x.length = x := by rw [List.take_left']; rfl
  have h3 : (a ++ z ++ b).drop (a.length + x.length) = b := by
    rw [hx, ← List.length_append, drop_prefix]
  have h4 : (x ++ file).drop x.length = file := drop_prefix _ _
  rw [h1, h2, h3, h4]

/-- Two headers that begin with the same 5175 bytes agree on the members of the first section. -/
theorem first_congr {a b z : Bytes} (ha : a.length = 5175) {off : Nat} (ho : off + 4 ≤ 5175) :
    Mtp.int4 (a ++ b) off = Mtp.int4 (a ++ z) off := by
  apply Mtp.int4_congr
  intro k hk
  rw [List.getElem?_append_left (by omega), List.getElem?_append_left (by omega)]

/-- The header is read from the file. -/
theorem binaryRead_memory {c : Content} (hc : Fits c) (rest : Bytes) :
    Mtp.binaryRead (headerBytes c ++ rest) = .ok (memory c, rest) := by
  obtain ⟨s1, s2, s3, s4⟩ := sizes
  have l1 := encode_length first c
  have l2 := encode_length second c
  have l3 := encode_length third c
  have l4 := encode_length composite c
  rw [s1] at l1
  rw [s2] at l2
  rw [s3] at l3
  rw [s4] at l4
  have hm : memory c = encode first c ++ (if 3 < c "Proc" 0 then List.replicate 2636 0 else encode second c) ++ encode third c ++
      (if c "Chan" 0 = 3 then encode composite c else List.replicate 48484 0) := by
    unfold memory all
    rw [encode_append, encode_append, encode_append, kept_first, kept_second, kept_third, kept_composite]
  have hf : headerBytes c = encode first c ++ encode second c ++ encode third c ++
      (if c "Chan" 0 = 3 then encode composite c else []) := by
    unfold headerBytes members
    rw [encode_append, encode_append, encode_append]
    by_cases h : c "Chan" 0 = 3
    · rw [if_pos h, if_pos h]
    · rw [if_neg h, if_neg h]; rfl
  have hp := memory_proc hc
  have hch := memory_chan hc
  rw [hm] at hp hch ⊢
  rw [hf]
  generalize encode first c = F at *
  generalize encode second c = S at *
  generalize encode third c = T at *
  generalize encode composite c = C at *
  have hz : (List.replicate 192999 0 : Bytes) = List.replicate 5175 0 ++ List.replicate 2636 0 ++ List.replicate 136704 0 ++ List.replicate 48484 0 := by
    rw [List.replicate_append_replicate, List.replicate_append_replicate, List.replicate_append_replicate]
  have z1 : (List.replicate 5175 0 : Bytes).length = 5175 := List.length_replicate
  have z2 : (List.replicate 2636 0 : Bytes).length = 2636 := List.length_replicate
  have z3 : (List.replicate 136704 0 : Bytes).length = 136704 := List.length_replicate
  have z4 : (List.replicate 48484 0 : Bytes).length = 48484 := List.length_replicate
  unfold Mtp.binaryRead
  rw [hz]
  clear hz hm hf
  generalize (List.replicate 5175 0 : Bytes) = Z1 at *
  generalize (List.replicate 2636 0 : Bytes) = Z2 at *
  generalize (List.replicate 136704 0 : Bytes) = Z3 at *
  generalize (List.replicate 48484 0 : Bytes) = Z4 at *
  dsimp only
  have e1 : Mtp.readAt (Z1 ++ Z2 ++ Z3 ++ Z4) 0 5175 (F ++ S ++ T ++ (if c "Chan" 0 = 3 then C else []) ++ rest) =
      .ok (F ++ (Z2 ++ Z3 ++ Z4), S ++ (T ++ ((if c "Chan" 0 = 3 then C else []) ++ rest))) := by
    have := readAt_parts [] (Z2 ++ Z3 ++ Z4) Z1 (S ++ (T ++ ((if c "Chan" 0 = 3 then C else []) ++ rest))) F (by omega)
      (off := 0) (n := 5175) rfl l1
    simp only [List.nil_append, List.append_assoc] at this ⊢
    exact this
  rw [e1, Outcome.ok_bind]
  dsimp only
  have e2 : Mtp.secondSection (F ++ (Z2 ++ Z3 ++ Z4)) (S ++ (T ++ ((if c "Chan" 0 = 3 then C else []) ++ rest))) =
      .ok (F ++ (if 3 < c "Proc" 0 then Z2 else S) ++ Z3 ++ Z4, T ++ ((if c "Chan" 0 = 3 then C else []) ++ rest)) := by
    have hr : Mtp.isRectified (F ++ (Z2 ++ Z3 ++ Z4)) = decide (3 < c "Proc" 0) := by
      unfold Mtp.isRectified
      rw [← hp]
      simp only [List.append_assoc]
      rw [first_congr (a := F) l1 (by omega)]
    unfold Mtp.secondSection
    rw [hr]
    by_cases h : 3 < c "Proc" 0
    · rw [if_pos (by simpa using h), if_pos h, ← l2, drop_prefix]
      simp only [List.append_assoc]
    · rw [if_neg (by simpa using h), if_neg h]
      have := readAt_parts F (Z3 ++ Z4) Z2 (T ++ ((if c "Chan" 0 = 3 then C else []) ++ rest)) S (by omega) (off := 5175)
        (n := 2636) l1 l2
      simp only [List.append_assoc] at this ⊢
      exact this
  rw [e2, Outcome.ok_bind]
  dsimp only
  have lq : (if 3 < c "Proc" 0 then Z2 else S).length = 2636 := by split <;> assumption
  generalize (if 3 < c "Proc" 0 then Z2 else S) = Q at *
  have hv : Mtp.isVisibleComposite (F ++ Q ++ Z3 ++ Z4) = decide (c "Chan" 0 = 3) := by
    have : Mtp.int4 (F ++ Q ++ Z3 ++ Z4) 40 = c "Chan" 0 := by
      rw [← hch]
      simp only [List.append_assoc]
      exact first_congr (a := F) l1 (by omega)
    unfold Mtp.isVisibleComposite
    rw [this]
    rfl
  unfold Mtp.thirdSection
  rw [hv]
  by_cases h : c "Chan" 0 = 3
  · rw [if_pos (by simpa using h), if_pos h, if_pos h]
    have := readAt_parts (F ++ Q) [] (Z3 ++ Z4) rest (T ++ C) (by simp only [List.length_append]; omega) (off := 7811)
      (n := 185188) (by simp only [List.length_append]; omega) (by simp only [List.length_append]; omega)
    simp only [List.append_assoc, List.append_nil] at this ⊢
    exact this
  · rw [if_neg (by simpa using h), if_neg h, if_neg h]
    have := readAt_parts (F ++ Q) Z4 Z3 rest T (by omega) (off := 7811)
      (n := 136704) (by simp only [List.length_append]; omega) l3
    simp only [List.append_assoc, List.nil_append] at this ⊢
    exact this

end Msat.MtpHeaderLemmas
