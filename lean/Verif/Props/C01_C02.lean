import Verif.Lemmas.Machine
import Verif.Spec.Calendar

/-
C01 Big-endian field decoding is exact.
C02 CDS timestamps denote the right instant.
-/
namespace Msat.Props
open Msat Spec Machine Time

/-! ## C01 -/

/-- Unsigned fields: reading the big-endian encoding of `v` anywhere in a buffer returns `v`. -/
theorem C01_unsigned_decode (pre post : Bytes) (v : Nat) :
    (v < 2 ^ 8 → ui1 (pre ++ encBE 1 v ++ post) pre.length = .ok v) ∧
    (v < 2 ^ 16 → ui2 (pre ++ encBE 2 v ++ post) pre.length = .ok v) ∧
    (v < 2 ^ 32 → ui4 (pre ++ encBE 4 v ++ post) pre.length = .ok v) ∧
    (v < 2 ^ 64 → ui8 (pre ++ encBE 8 v ++ post) pre.length = .ok v) :=
  ⟨ui1_at pre v post, ui2_at pre v post, ui4_at pre v post, ui8_at pre v post⟩

example : ui4 ([9] ++ encBE 4 0x01020304 ++ [7]) 1 = .ok 0x01020304 :=
  (C01_unsigned_decode [9] [7] 0x01020304).2.2.1 (by decide)

/-- Signed fields: reading the big-endian two's complement encoding of `v` returns `v`. -/
theorem C01_signed_decode (pre post : Bytes) (v : Int) :
    (-2 ^ 15 ≤ v → v < 2 ^ 15 → i2 (pre ++ encBE 2 (pattern 16 v) ++ post) pre.length = .ok v) ∧
    (-2 ^ 31 ≤ v → v < 2 ^ 31 → i4 (pre ++ encBE 4 (pattern 32 v) ++ post) pre.length = .ok v) :=
  ⟨i2_at pre v post, i4_at pre v post⟩

example : i4 ([] ++ encBE 4 (pattern 32 (-13642337)) ++ [7]) 0 = .ok (-13642337) :=
  (C01_signed_decode [] [7] (-13642337)).2 (by decide) (by decide)

/-- Every byte pattern is decoded, on either kind of host once `check_endianess` has run, to the
number it denotes in big-endian order; hence re-encoding gives the same bytes. -/
theorem C01_patterns (h : Host) (b0 b1 b2 b3 b4 b5 b6 b7 : UInt8) :
    encBE 1 (getUI1 h b0) = [b0] ∧
    encBE 2 (getUI2 h (checkEndianess h) b0 b1) = [b0, b1] ∧
    encBE 4 (getUI4 h (checkEndianess h) b0 b1 b2 b3) = [b0, b1, b2, b3] ∧
    encBE 8 (getUI8 h (checkEndianess h) b0 b1 b2 b3 b4 b5 b6 b7)
      = [b0, b1, b2, b3, b4, b5, b6, b7] := by
  rw [getUI1_eq, getUI2_eq, getUI4_eq, getUI8_eq]
  exact ⟨encBE_beVal [b0], encBE_beVal [b0, b1], encBE_beVal [b0, b1, b2, b3],
    encBE_beVal [b0, b1, b2, b3, b4, b5, b6, b7]⟩

/-- Signed patterns, all widths, either host: the decoded number is the two's complement reading
of the big-endian bytes. -/
theorem C01_signed_patterns (h : Host) (b0 b1 b2 b3 b4 b5 b6 b7 : UInt8) :
    getI1 h b0 = signed 8 (beVal [b0]) ∧
    getI2 h (checkEndianess h) b0 b1 = signed 16 (beVal [b0, b1]) ∧
    getI4 h (checkEndianess h) b0 b1 b2 b3 = signed 32 (beVal [b0, b1, b2, b3]) ∧
    getI8 h (checkEndianess h) b0 b1 b2 b3 b4 b5 b6 b7
      = signed 64 (beVal [b0, b1, b2, b3, b4, b5, b6, b7]) :=
  ⟨getI1_eq h b0, getI2_eq h b0 b1, getI4_eq h b0 b1 b2 b3, getI8_eq h b0 b1 b2 b3 b4 b5 b6 b7⟩

/-- Floating point fields: the IEEE bit pattern is the big-endian pattern of the bytes. -/
theorem C01_float_patterns (h : Host) (b0 b1 b2 b3 b4 b5 b6 b7 : UInt8) :
    (getR4 h (checkEndianess h) b0 b1 b2 b3).toNat = beVal [b0, b1, b2, b3] ∧
    (getR8 h (checkEndianess h) b0 b1 b2 b3 b4 b5 b6 b7).toNat
      = beVal [b0, b1, b2, b3, b4, b5, b6, b7] := by
  constructor
  · have e := getUI4_eq h b0 b1 b2 b3
    simp only [getUI4] at e
    simp only [getR4, e, BitVec.toNat_ofNat]
    have hl := beVal_lt [b0, b1, b2, b3]
    rw [show [b0, b1, b2, b3].length = 4 from rfl] at hl
    omega
  · have e := getUI8_eq h b0 b1 b2 b3 b4 b5 b6 b7
    simp only [getUI8] at e
    simp only [getR8, e, BitVec.toNat_ofNat]
    have hl := beVal_lt [b0, b1, b2, b3, b4, b5, b6, b7]
    rw [show [b0, b1, b2, b3, b4, b5, b6, b7].length = 8 from rfl] at hl
    omega

/-- A read is undefined behaviour exactly when the bytes are not in the buffer. -/
theorem C01_ub_iff (buf : Bytes) (off : Nat) :
    (ui2 buf off = .ub ↔ buf.length < off + 2) ∧ (ui4 buf off = .ub ↔ buf.length < off + 4) := by
  have hl : (buf.drop off).length = buf.length - off := List.length_drop
  constructor
  · unfold ui2
    split
    · next e => rw [e] at hl; simp at hl; simp; omega
    · next hne =>
      simp only [true_iff]
      rcases hd : buf.drop off with _ | ⟨a, _ | ⟨b, l⟩⟩
      · rw [hd] at hl; simp at hl; omega
      · rw [hd] at hl; simp at hl; omega
      · exact absurd hd (hne a b l)
  · unfold ui4
    split
    · next e => rw [e] at hl; simp at hl; simp; omega
    · next hne =>
      simp only [true_iff]
      rcases hd : buf.drop off with _ | ⟨a, _ | ⟨b, _ | ⟨c, _ | ⟨d, l⟩⟩⟩⟩
      · rw [hd] at hl; simp at hl; omega
      · rw [hd] at hl; simp at hl; omega
      · rw [hd] at hl; simp at hl; omega
      · rw [hd] at hl; simp at hl; omega
      · exact absurd hd (hne a b c d l)

/-- On a big-endian host a program that never calls `check_endianess` decodes wrongly: the flag
is part of the contract. -/
theorem C01_big_host_needs_check : getUI2 .big false 1 0 ≠ beVal [1, 0] := by decide

/-- OpenMTP-IDS streams: the big-endian writer followed by the big-endian reader is the identity on
16 and 32 bit values and leaves the rest of the stream. -/
theorem C01_stream_big (v : Nat) (rest : Bytes) :
    (v < 2 ^ 16 → bsBigWrite2 v = encBE 2 v ∧ bsBigRead2 (bsBigWrite2 v ++ rest) = (v, rest)) ∧
    (v < 2 ^ 32 → bsBigWrite4 v = encBE 4 v ∧ bsBigRead4 (bsBigWrite4 v ++ rest) = (v, rest)) := by
  constructor
  · intro h
    have p : pattern 16 v = v := by
      simp only [pattern]; omega
    have e : beVal (encBE 2 v) = v := beVal_encBE_of_lt h
    rw [bsBigWrite2_eq, p]
    refine ⟨rfl, ?_⟩
    simp only [encBE] at e
    simp only [encBE, List.cons_append, List.nil_append, bsBigRead2_cons, e]
  · intro h
    have p : pattern 32 v = v := by
      simp only [pattern]; omega
    have e : beVal (encBE 4 v) = v := beVal_encBE_of_lt h
    rw [bsBigWrite4_eq, p]
    refine ⟨rfl, ?_⟩
    simp only [encBE] at e
    simp only [encBE, List.cons_append, List.nil_append, bsBigRead4_cons, e]

/-- The same for the little-endian streams. -/
theorem C01_stream_little (v : Nat) (rest : Bytes) :
    (v < 2 ^ 16 → bsLittleWrite2 v = encLE 2 v ∧
      bsLittleRead2 (bsLittleWrite2 v ++ rest) = (v, rest)) ∧
    (v < 2 ^ 32 → bsLittleWrite4 v = encLE 4 v ∧
      bsLittleRead4 (bsLittleWrite4 v ++ rest) = (v, rest)) := by
  constructor
  · intro h
    have p : pattern 16 v = v := by
      simp only [pattern]; omega
    have e : leVal (encLE 2 v) = v := by rw [encLE, leVal_reverse]; exact beVal_encBE_of_lt h
    rw [bsLittleWrite2_eq, p]
    refine ⟨rfl, ?_⟩
    simp only [encLE, encBE, List.reverse_cons, List.reverse_nil, List.nil_append,
      List.cons_append] at e
    simp only [encLE, encBE, List.reverse_cons, List.reverse_nil, List.cons_append,
      List.nil_append, bsLittleRead2_cons, e]
  · intro h
    have p : pattern 32 v = v := by
      simp only [pattern]; omega
    have e : leVal (encLE 4 v) = v := by rw [encLE, leVal_reverse]; exact beVal_encBE_of_lt h
    rw [bsLittleWrite4_eq, p]
    refine ⟨rfl, ?_⟩
    simp only [encLE, encBE, List.reverse_cons, List.reverse_nil, List.nil_append,
      List.cons_append] at e
    simp only [encLE, encBE, List.reverse_cons, List.reverse_nil, List.cons_append,
      List.nil_append, bsLittleRead4_cons, e]

example : bsBigRead2 (bsBigWrite2 (513 : Nat) ++ [9]) = (513, [9]) :=
  ((C01_stream_big 513 [9]).1 (by decide)).2

/-! ## C02 -/

/-- The instant denoted by a CDS short time, as Unix time: days since 1958-01-01, counted from the
calendar to 1970-01-01, and whole seconds of the day. -/
def cdsInstant (day msec : Nat) : Int :=
  ((day : Int) - daysBetweenYears 1958 1970) * 86400 + msec / 1000

/-- The timestamp read from the encoding of (day, msec) anywhere in a buffer is the Unix time of
that instant, with the remaining milliseconds. -/
theorem C02_instant (pre post : Bytes) (day msec : Nat) (hd : day < 2 ^ 16) (hm : msec < 2 ^ 32) :
    ∃ t, cdsShort (pre ++ encBE 2 day ++ encBE 4 msec ++ post) pre.length = .ok t ∧
      t.day = day ∧ t.msec = msec ∧ t.unixtime = cdsInstant day msec ∧ t.usecs = msec % 1000 := by
  refine ⟨_, cdsShort_at pre day msec post hd hm, rfl, rfl, ?_, rfl⟩
  have : daysBetweenYears 1958 1970 = 4383 := by decide
  simp only [cdsShortOf, cdsInstant, this]
  omega

-- 2006-09-01 00:00:00.500: day 17775 after 1958-01-01
example : ∃ t, cdsShort ([] ++ encBE 2 17775 ++ encBE 4 500 ++ []) 0 = .ok t ∧
    t.unixtime = 1157068800 := by
  obtain ⟨t, h, _, _, hu, _⟩ := C02_instant [] [] 17775 500 (by decide) (by decide)
  exact ⟨t, h, by rw [hu]; decide⟩

/-- On times of day below 24h, (unixtime, milliseconds) is strictly monotone in (day, msec): later
timestamps denote later instants, and different timestamps different instants. -/
theorem C02_monotone (d₁ m₁ d₂ m₂ : Nat) (h₁ : m₁ < 86400000) (h₂ : m₂ < 86400000) :
    (d₁ < d₂ ∨ d₁ = d₂ ∧ m₁ < m₂) ↔
      ((cdsShortOf d₁ m₁).unixtime < (cdsShortOf d₂ m₂).unixtime ∨
        (cdsShortOf d₁ m₁).unixtime = (cdsShortOf d₂ m₂).unixtime ∧
          (cdsShortOf d₁ m₁).usecs < (cdsShortOf d₂ m₂).usecs) := by
  simp only [cdsShortOf]
  omega

/-- Injectivity: the instant determines the timestamp. -/
theorem C02_injective (d₁ m₁ d₂ m₂ : Nat) (h₁ : m₁ < 86400000) (h₂ : m₂ < 86400000)
    (hu : (cdsShortOf d₁ m₁).unixtime = (cdsShortOf d₂ m₂).unixtime)
    (hs : (cdsShortOf d₁ m₁).usecs = (cdsShortOf d₂ m₂).usecs) : d₁ = d₂ ∧ m₁ = m₂ := by
  simp only [cdsShortOf] at hu hs
  omega

/-- Without the 24h bound the instants do overlap: the bound is needed. -/
theorem C02_overlap : (cdsShortOf 0 86400000).unixtime = (cdsShortOf 1 0).unixtime := by decide

/-- The expanded and the plain CDS times extend the short time by microseconds and nanoseconds. -/
theorem C02_expanded (pre post : Bytes) (day msec us ns : Nat) (hd : day < 2 ^ 16)
    (hm : msec < 2 ^ 32) (hu : us < 2 ^ 16) (hn : ns < 2 ^ 16) :
    (∃ t, cdsExpanded (pre ++ encBE 2 day ++ encBE 4 msec ++ encBE 2 us ++ encBE 2 ns ++ post)
        pre.length = .ok (t, us, ns) ∧ t.unixtime = cdsInstant day msec ∧ t.msec = msec) ∧
    (∃ t, cds (pre ++ encBE 2 day ++ encBE 4 msec ++ encBE 2 us ++ post) pre.length = .ok (t, us) ∧
      t.unixtime = cdsInstant day msec ∧ t.msec = msec) := by
  constructor
  · obtain ⟨t, h, _, hms, hut, _⟩ := C02_instant pre (encBE 2 us ++ encBE 2 ns ++ post) day msec hd hm
    have e1 := ui2_at (pre ++ encBE 2 day ++ encBE 4 msec) us (encBE 2 ns ++ post) hu
    have e2 := ui2_at (pre ++ encBE 2 day ++ encBE 4 msec ++ encBE 2 us) ns post hn
    simp only [List.length_append, encBE_length, Nat.add_assoc] at e1 e2
    simp only [List.append_assoc] at h e1 e2 ⊢
    refine ⟨t, ?_, hut, hms⟩
    simp only [cdsExpanded, h, e1, e2, Outcome.ok_bind, Outcome.pure_eq]
  · obtain ⟨t, h, _, hms, hut, _⟩ := C02_instant pre (encBE 2 us ++ post) day msec hd hm
    have e1 := ui2_at (pre ++ encBE 2 day ++ encBE 4 msec) us post hu
    simp only [List.length_append, encBE_length, Nat.add_assoc] at e1
    simp only [List.append_assoc] at h e1 ⊢
    refine ⟨t, ?_, hut, hms⟩
    simp only [cds, h, e1, Outcome.ok_bind, Outcome.pure_eq]

/-- The 7-byte CUC time is the fixed-point number (24 fractional bits) of its bytes. -/
theorem C02_cuc (pre post : Bytes) (v : Nat) (h : v < 2 ^ 56) :
    cuc24 (pre ++ encBE 7 v ++ post) pre.length = .ok v := by
  have e : beVal (encBE 7 v) = v := beVal_encBE_of_lt h
  simp only [encBE] at e
  simp only [cuc24, List.append_assoc, List.drop_left, encBE, List.cons_append]
  refine congrArg Outcome.ok (Eq.trans ?_ e)
  simp only [beVal, List.length, Nat.reduceAdd, Nat.reducePow]
  omega

end Msat.Props
