import Verif.Model.Native
import Verif.Spec.Native
import Verif.Lemmas.Prologue
import Verif.Lemmas.HritHeader
import Verif.Props.C05
import Verif.Lemmas.Outcome
import Verif.Lemmas.Machine

namespace Msat.Props
open Native NativeSpec Spec Layout Machine

/-! ## C30: samples of ten bits -/

theorem bits_length (w v : Nat) : (bits w v).length = w := by simp [bits]

theorem bits_inj {w u v : Nat} (hu : u < 2 ^ w) (hv : v < 2 ^ w) (h : bits w u = bits w v) : u = v := by
  apply Nat.eq_of_testBit_eq
  intro i
  by_cases hi : i < w
  · have h1 : (bits w u)[w - 1 - i]? = (bits w v)[w - 1 - i]? := by rw [h]
    simp only [bits, List.getElem?_map, List.getElem?_range (show w - 1 - i < w by omega), Option.map_some,
      Option.some.injEq] at h1
    rwa [show w - 1 - (w - 1 - i) = i by omega] at h1
  · have hp : (2 : Nat) ^ w ≤ 2 ^ i := Nat.pow_le_pow_right (by omega) (by omega)
    rw [Nat.testBit_lt_two_pow (by omega), Nat.testBit_lt_two_pow (by omega)]

theorem group_bits (a b c d e : UInt8) :
    bits 10 ((a.toNat <<< 2) ||| (b.toNat >>> 6)) ++ (bits 10 (((b.toNat &&& 63) <<< 4) ||| (c.toNat >>> 4)) ++
      (bits 10 (((c.toNat &&& 15) <<< 6) ||| (d.toNat >>> 2)) ++ bits 10 (((d.toNat &&& 3) <<< 8) ||| e.toNat)))
    = bits 8 a.toNat ++ (bits 8 b.toNat ++ (bits 8 c.toNat ++ (bits 8 d.toNat ++ bits 8 e.toNat))) := by
  have hz : ∀ (x : UInt8) (i : Nat), 8 ≤ i → x.toNat.testBit i = false := by
    intro x i hi
    apply Nat.testBit_lt_two_pow
    have h1 := x.toNat_lt
    have : (2 : Nat) ^ 8 ≤ 2 ^ i := Nat.pow_le_pow_right (by omega) hi
    omega
  have h63 : ∀ i, (63 : Nat).testBit i = decide (i < 6) := fun i => Nat.testBit_two_pow_sub_one 6 i
  have h15 : ∀ i, (15 : Nat).testBit i = decide (i < 4) := fun i => Nat.testBit_two_pow_sub_one 4 i
  have h3 : ∀ i, (3 : Nat).testBit i = decide (i < 2) := fun i => Nat.testBit_two_pow_sub_one 2 i
  simp [bits, List.range_succ, Nat.testBit_or, Nat.testBit_shiftLeft, Nat.testBit_shiftRight, Nat.testBit_and,
    h63, h15, h3, hz]

theorem group_lt (a b c d e : UInt8) :
    ((a.toNat <<< 2) ||| (b.toNat >>> 6)) < 2 ^ 10 ∧ (((b.toNat &&& 63) <<< 4) ||| (c.toNat >>> 4)) < 2 ^ 10 ∧
    (((c.toNat &&& 15) <<< 6) ||| (d.toNat >>> 2)) < 2 ^ 10 ∧ (((d.toNat &&& 3) <<< 8) ||| e.toNat) < 2 ^ 10 := by
  have ha := a.toNat_lt
  have hb := b.toNat_lt
  have hc := c.toNat_lt
  have hd := d.toNat_lt
  have he := e.toNat_lt
  have h1 : b.toNat &&& 63 ≤ 63 := Nat.and_le_right
  have h2 : c.toNat &&& 15 ≤ 15 := Nat.and_le_right
  have h3 : d.toNat &&& 3 ≤ 3 := Nat.and_le_right
  refine ⟨Nat.or_lt_two_pow ?_ ?_, Nat.or_lt_two_pow ?_ ?_, Nat.or_lt_two_pow ?_ ?_, Nat.or_lt_two_pow ?_ ?_⟩
  all_goals first
    | (rw [Nat.shiftLeft_eq]; omega)
    | (rw [Nat.shiftRight_eq_div_pow]; omega)
    | omega

/-- Unpacking data of a whole number of groups of five bytes never leaves the buffers: the samples stored
are as many as announced, each is a number of ten bits, and together they are the bits of the data, in
order. -/
theorem C30_unpack_partial (data : Bytes) (h5 : data.length % 5 = 0) :
    ∃ ss, toSample data none = .ok (ss, ss.length) ∧ ss.length = data.length * 8 / 10 ∧
      (∀ s ∈ ss, s < 2 ^ 10) ∧ bitsOfSamples ss = bitsOfBytes data := by
  have key : ∃ ss, unpack data = .ok ss ∧ ss.length = data.length * 8 / 10 ∧
      (∀ s ∈ ss, s < 2 ^ 10) ∧ bitsOfSamples ss = bitsOfBytes data := by
    fun_induction unpack data with
    | case1 => exact ⟨[], rfl, rfl, by simp, rfl⟩
    | case2 a b c d e rest ih =>
      obtain ⟨ss, h1, h2, h3, h4⟩ := ih (by simp only [List.length_cons] at h5; omega)
      refine ⟨_, by rw [h1]; rfl, ?_, ?_, ?_⟩
      · simp only [List.length_cons]; omega
      · obtain ⟨g1, g2, g3, g4⟩ := group_lt a b c d e
        intro s hs
        simp only [List.mem_cons] at hs
        rcases hs with rfl | rfl | rfl | rfl | hs
        · exact g1
        · exact g2
        · exact g3
        · exact g4
        · exact h3 s hs
      · have := group_bits a b c d e
        simp only [bitsOfSamples, bitsOfBytes, List.flatMap_cons] at h4 ⊢
        rw [h4]
        have := congrArg (· ++ (rest.flatMap fun b => bits 8 b.toNat)) this
        simpa only [List.append_assoc] using this
    | case3 t h1 h2 =>
      exfalso
      match t, h1, h2 with
      | [], h1, _ => exact h1 rfl
      | [_], _, _ => simp at h5
      | [_, _], _, _ => simp at h5
      | [_, _, _], _, _ => simp at h5
      | [_, _, _, _], _, _ => simp at h5
      | a :: b :: c :: d :: e :: r, _, h2 => exact h2 _ _ _ _ _ _ rfl
  obtain ⟨ss, h1, h2, h3, h4⟩ := key
  refine ⟨ss, ?_, h2, h3, h4⟩
  unfold toSample
  rw [h1, Outcome.ok_bind, if_pos (by simp [h2]), h2]
  rfl

example : toSample [0xFF, 0xC0, 0x00, 0x04, 0x01] none = .ok ([1023, 0, 1, 1], 4) := by decide +kernel

theorem flatMap_bits_inj {w : Nat} : ∀ {us vs : List Nat}, us.length = vs.length → (∀ u ∈ us, u < 2 ^ w) →
    (∀ v ∈ vs, v < 2 ^ w) → us.flatMap (bits w) = vs.flatMap (bits w) → us = vs
  | [], [], _, _, _, _ => rfl
  | u :: us, v :: vs, hl, hu, hv, h => by
    simp only [List.flatMap_cons] at h
    obtain ⟨h1, h2⟩ := List.append_inj h (by rw [bits_length, bits_length])
    rw [bits_inj (hu u (by simp)) (hv v (by simp)) h1,
      flatMap_bits_inj (by simpa using hl) (fun x hx => hu x (by simp [hx])) (fun x hx => hv x (by simp [hx])) h2]

theorem flatMap_length_const {α β : Type} (f : α → List β) (n : Nat) (h : ∀ a, (f a).length = n) (l : List α) :
    (l.flatMap f).length = n * l.length := by
  induction l with
  | nil => simp
  | cons a l ih => rw [List.flatMap_cons, List.length_append, h, ih, List.length_cons, Nat.mul_add]; omega

/-- Data into which any samples of ten bits have been packed, a multiple of four of them, is unpacked to
exactly these samples, in order. -/
theorem C30_roundtrip_partial (ss : List Nat) (data : Bytes) (h4 : ss.length % 4 = 0) (hs : ∀ s ∈ ss, s < 2 ^ 10)
    (hp : bitsOfBytes data = bitsOfSamples ss) : toSample data none = .ok (ss, ss.length) := by
  have hl : 8 * data.length = 10 * ss.length := by
    have := congrArg List.length hp
    rw [bitsOfBytes, bitsOfSamples, flatMap_length_const _ 8 (fun b => bits_length 8 _),
      flatMap_length_const _ 10 (fun b => bits_length 10 _)] at this
    exact this
  obtain ⟨ss', h1, h2, h3, h5⟩ := C30_unpack_partial data (by omega)
  have e : ss' = ss := flatMap_bits_inj (by omega) h3 hs (by
    rw [hp] at h5
    exact h5)
  rw [h1, e]

example : toSample [0xFF, 0xC0, 0x00, 0x04, 0x01] none = .ok ([1023, 0, 1, 1], 4) :=
  C30_roundtrip_partial [1023, 0, 1, 1] _ (by decide) (by decide) (by decide +kernel)

/-- A caller's buffer is never overrun when it has room for the announced number of samples; a smaller one
is. -/
theorem C30_room_partial (data : Bytes) (h5 : data.length % 5 = 0) (room : Nat) :
    (data.length * 8 / 10 ≤ room → toSample data (some room) = toSample data none) ∧
    (room < data.length * 8 / 10 → toSample data (some room) = .ub) := by
  obtain ⟨ss, h1, h2, _⟩ := C30_unpack_partial data h5
  have hu : unpack data = .ok ss := by
    unfold toSample at h1
    obtain ⟨a, ha, hb⟩ := Outcome.of_bind_ok h1
    split at hb
    · simp only [Outcome.pure_eq, Outcome.ok.injEq, Prod.mk.injEq] at hb
      rw [ha, hb.1]
    · cases hb
  unfold toSample
  rw [hu]
  simp only [Outcome.ok_bind, Option.getD_some, Option.getD_none]
  constructor
  · intro h
    rw [if_pos (by omega), if_pos (by omega)]
  · intro h
    rw [if_neg (by omega)]

/-- Data of any other length, in particular any number of samples that is not a multiple of four, packed in
as few bytes as possible, makes the loop read outside of the data. -/
theorem C30_violated_odd_length (data : Bytes) (room : Option Nat) (h5 : data.length % 5 ≠ 0) :
    toSample data room = .ub := by
  have key : unpack data = .ub := by
    fun_induction unpack data with
    | case1 => simp at h5
    | case2 a b c d e rest ih =>
      rw [ih (by simp only [List.length_cons] at h5; omega)]
      rfl
    | case3 t h1 h2 => rfl
  unfold toSample
  rw [key]
  rfl

/-! ## C31: packets and their lengths -/

theorem readN_append (a b : Bytes) (n : Nat) (h : a.length = n) : readN (a ++ b) n = .ok (a, b) := by
  subst h
  unfold readN
  rw [if_pos (by simp), List.take_left, List.drop_left]

theorem packetLength_eq {hdr : Bytes} (h : hdr.length = 38) :
    packetLength hdr = .ok (beVal ((hdr.drop 18).take 4)) := by
  obtain ⟨b, c, d, e, f, hf⟩ : ∃ b c d e f, hdr.drop 18 = b :: c :: d :: e :: f := by
    match h' : hdr.drop 18 with
    | [] => have := congrArg List.length h'; simp [h] at this
    | [_] => have := congrArg List.length h'; simp [h] at this
    | [_, _] => have := congrArg List.length h'; simp [h] at this
    | [_, _, _] => have := congrArg List.length h'; simp [h] at this
    | b :: c :: d :: e :: f => exact ⟨b, c, d, e, f, rfl⟩
  unfold packetLength Machine.ui4
  rw [hf]
  simp only
  rw [← chk_little, getUI4_eq]
  rfl

theorem beVal4_lt (l : Bytes) : beVal (l.take 4) < 2 ^ 32 := by
  match l with
  | [] => simp [beVal]
  | [a] => have := a.toNat_lt; simp [beVal]; omega
  | [a, b] => have := a.toNat_lt; have := b.toNat_lt; simp [beVal]; omega
  | [a, b, c] => have := a.toNat_lt; have := b.toNat_lt; have := c.toNat_lt; simp [beVal]; omega
  | a :: b :: c :: d :: _ =>
    have := a.toNat_lt; have := b.toNat_lt; have := c.toNat_lt; have := d.toNat_lt; simp [beVal]; omega

theorem u64sub_eq_iff {n k c : Nat} (hn : n < 2 ^ 32) (hc : c ≤ 2 ^ 32) (hk : k < 2 ^ 32) :
    k = u64sub n c ↔ n = k + c := by
  unfold u64sub; omega

/-- Each structure of the header packet returns exactly the constant by which the reader advances. -/
theorem C31_header_parts : ∀ x ∈ headerParts, ∀ base, (x.2.1 base).2 = x.2.2 := by
  intro x hx base
  simp only [headerParts, List.mem_cons, List.not_mem_nil, or_false] at hx
  rcases hx with rfl | rfl | rfl | rfl | rfl | rfl | rfl
  · show (satelliteStatus base).2 = _
    rw [satelliteStatus_agrees base, satelliteStatusLay_size]
  · show (imageAcquisition base).2 = _
    rw [imageAcquisition_agrees base, imageAcquisitionLay_size]
  · show (celestialEvents base).2 = _
    rw [celestialEvents_agrees base, celestialEventsLay_size]
  · show (imageDescription base).2 = _
    rw [imageDescription_agrees base, imageDescriptionLay_size]
  · show (radiometricProc base).2 = _
    rw [(radiometricProc_on (ok := sound) (by decide) base).2, radiometricProcLay_size]
  · show (geometricProc base).2 = _
    rw [(geometricProc_on (ok := sound) (fun j => by simp [sound, defective]) base).2, geometricProcLay_size]
  · show (iMPFConfiguration base).2 = _
    rw [(iMPFConfiguration_on (ok := sound) (fun j => by simp [sound, defective]) base).2,
      iMPFConfigurationLay_size]

/-- The same for the trailer packet. -/
theorem C31_trailer_parts : ∀ x ∈ trailerParts, ∀ base, (x.2.1 base).2 = x.2.2 := by
  intro x hx base
  simp only [trailerParts, List.mem_cons, List.not_mem_nil, or_false] at hx
  rcases hx with rfl | rfl | rfl | rfl | rfl
  · show (imageProdStats base).2 = _
    rw [imageProdStats_agrees base, imageProdStatsLay_size]
  · show (navigExtrResult base).2 = _
    rw [(navigExtrResult_on (ok := sound) (fun j => by simp [sound, defective]) base).2, navigExtrResultLay_size]
  · show (radiometricQuality base).2 = _
    rw [radiometricQuality_agrees base, radiometricQualityLay_size]
  · show (geometricQuality base).2 = _
    rw [geometricQuality_agrees base, geometricQualityLay_size]
  · show (timelinComple base).2 = _
    rw [timelinComple_agrees base, timelinCompleLay_size]

theorem parts_pos (ps : List (String × ReadFrom × Nat)) : ∀ b p, (parts ps b p).2 = p + (ps.map (·.2.2)).sum := by
  induction ps with
  | nil => intro b p; simp [parts]
  | cons x ps ih =>
    obtain ⟨nm, f, len⟩ := x
    intro b p
    simp only [parts, block, callAt, adv, ih, List.map_cons, List.sum_cons]
    omega

theorem parts_reads (ps : List (String × ReadFrom × Nat)) : ∀ b p,
    (parts ps b p).1 = (List.range ps.length).flatMap (fun k =>
      match ps[k]? with
      | some x => (x.2.1 (b + p + ((ps.take k).map (·.2.2)).sum)).1.map (Read.under [.f x.1])
      | none => []) := by
  induction ps with
  | nil => intro b p; simp [parts]
  | cons x ps ih =>
    intro b p
    simp only [parts, block, callAt, adv, List.append_nil, List.nil_append, ih, List.length_cons,
      List.range_succ_eq_map, List.flatMap_cons, List.flatMap_map]
    simp [Nat.add_assoc]

/-- The structures of the header and of the trailer lie one after the other, from byte 1 of the packet: the
`k`-th is read right after the lengths of those before it, and the last ends where the packet ends. -/
theorem C31_consecutive :
    (∀ ps ∈ [headerParts, trailerParts], ∀ base,
      (level15 ps base).1 = (List.range ps.length).flatMap (fun k =>
        match ps[k]? with
        | some x => (x.2.1 (base + 1 + ((ps.take k).map (·.2.2)).sum)).1.map (Read.under [.f x.1])
        | none => [])) ∧
    (∀ base, (level15 headerParts base).2 = 445248) ∧ (∀ base, (level15 trailerParts base).2 = 380325) := by
  refine ⟨fun ps _ base => ?_, fun base => ?_, fun base => ?_⟩
  · simp only [level15, body, block, adv, parts_reads, List.append_nil, List.nil_append, Nat.zero_add]
  · simp only [level15, body, block, adv, parts_pos]
    rfl
  · simp only [level15, body, block, adv, parts_pos]
    rfl

theorem readPacket_ok_iff {l15 : Nat} (hl : l15 < 2 ^ 32) (s : Bytes) (lbuf body rest : Bytes) :
    readPacket l15 s = .ok ((lbuf, body), rest) ↔
      s = lbuf ++ body ++ rest ∧ Announces lbuf l15 ∧ body.length = l15 := by
  constructor
  · intro h
    unfold readPacket at h
    obtain ⟨⟨a, s1⟩, h1, h⟩ := Outcome.of_bind_ok h
    obtain ⟨n, h2, h⟩ := Outcome.of_bind_ok h
    unfold readN at h1
    split at h1
    · rename_i hle
      simp only [Outcome.ok.injEq, Prod.mk.injEq] at h1
      obtain ⟨rfl, rfl⟩ := h1
      have h38 : (s.take pkhLen).length = 38 := by rw [List.length_take]; unfold pkhLen at *; omega
      rw [packetLength_eq h38] at h2
      simp only [Outcome.ok.injEq] at h2
      split at h
      · cases h
      · rename_i hn
        simp only [ne_eq, Decidable.not_not] at hn
        obtain ⟨⟨c, s2⟩, h3, h⟩ := Outcome.of_bind_ok h
        unfold readN at h3
        split at h3
        · rename_i hle2
          simp only [Outcome.ok.injEq, Prod.mk.injEq] at h3
          obtain ⟨rfl, rfl⟩ := h3
          simp only [Outcome.pure_eq, Outcome.ok.injEq, Prod.mk.injEq] at h
          obtain ⟨⟨rfl, rfl⟩, rfl⟩ := h
          refine ⟨?_, ⟨h38, ?_⟩, ?_⟩
          · rw [List.append_assoc, List.take_append_drop, List.take_append_drop]
          · rw [h2]
            rw [u64sub_eq_iff (h2 ▸ beVal4_lt _) (by omega) hl] at hn
            omega
          · rw [List.length_take]; omega
        · cases h3
    · cases h1
  · rintro ⟨rfl, ⟨h38, hn⟩, hb⟩
    unfold readPacket
    rw [List.append_assoc, readN_append _ _ pkhLen h38]
    simp only [Outcome.ok_bind]
    rw [packetLength_eq h38, Outcome.ok_bind, hn]
    rw [if_neg (by
      simp only [ne_eq, Decidable.not_not]
      rw [u64sub_eq_iff (by rw [← hn]; exact beVal4_lt _) (by omega) hl])]
    rw [readN_append _ _ _ hb]
    rfl

/-- The trailer is read exactly from the packets that announce the sum of the lengths of its parts, and
exactly that many bytes are consumed after the packet header; all other input is refused (the refusal is a
bare `throw;`, that ends the program). -/
theorem C31_trailer (s lbuf l15 rest : Bytes) :
    (readNativeTrailer s = .ok ((lbuf, l15), rest) ↔
      s = lbuf ++ l15 ++ rest ∧ Announces lbuf l15.length ∧
      l15.length = 1 + 340 + 5680 + 371256 + 2916 + 132) ∧
    ((¬ ∃ x, readNativeTrailer s = .ok x) → readNativeTrailer s = .terminate) := by
  have e : ∀ s, readNativeTrailer s = readPacket trailerLen s := by
    intro s
    unfold readNativeTrailer
    rw [C31_consecutive.2.2]
    cases h : readPacket trailerLen s with
    | ok x => rw [Outcome.ok_bind]; exact if_neg (show ¬ 380325 ≠ trailerLen by decide)
    | _ => rfl
  have hlen : trailerLen = 1 + 340 + 5680 + 371256 + 2916 + 132 := by decide
  rw [e]
  refine ⟨?_, fun hn => ?_⟩
  · rw [readPacket_ok_iff (by decide), ← hlen]
    constructor
    · rintro ⟨h1, h2, h3⟩; exact ⟨h1, h3 ▸ h2, h3⟩
    · rintro ⟨h1, h2, h3⟩; exact ⟨h1, h3 ▸ h2, h3⟩
  · generalize trailerLen = n at hn ⊢
    unfold readPacket at hn ⊢
    unfold readN at hn ⊢
    split
    · rename_i h
      rw [if_pos h] at hn
      simp only [Outcome.ok_bind] at hn ⊢
      rw [packetLength_eq (by rw [List.length_take]; unfold pkhLen at *; omega), Outcome.ok_bind] at hn ⊢
      split
      · rfl
      · rename_i h2
        rw [if_neg h2] at hn
        split
        · rename_i h3
          rw [if_pos h3] at hn
          exact absurd ⟨_, rfl⟩ hn
        · rfl
    · rfl

/-- A text header is readable when it contains a NUL at the very end. -/
theorem cstr_ok {buf : Bytes} {off : Nat} (h0 : (0 : UInt8) ∈ buf.drop off) : ∃ s, cstr buf off = .ok s := by
  unfold cstr; rw [if_pos h0]; exact ⟨_, rfl⟩

theorem mphEntries_ok {buf : Bytes} (h0 : ∀ o ≤ 5034, (0 : UInt8) ∈ buf.drop o) :
    ∀ (t : List (List Nat)), (∀ os ∈ t, ∀ o ∈ os, o ≤ 5034) → ∃ r, mphEntries buf t = .ok r := by
  have h1 : ∀ (os : List Nat), (∀ o ∈ os, o ≤ 5034) → ∃ r, mphEntry buf os = .ok r := by
    intro os
    induction os with
    | nil => intro _; exact ⟨_, rfl⟩
    | cons o os ih =>
      intro h
      obtain ⟨s, hs⟩ := cstr_ok (h0 o (h o (by simp)))
      obtain ⟨r, hr⟩ := ih (fun o ho => h o (by simp [ho]))
      exact ⟨_, by rw [mphEntry, hs, Outcome.ok_bind, hr]; rfl⟩
  intro t
  induction t with
  | nil => intro _; exact ⟨_, rfl⟩
  | cons os t ih =>
    intro h
    obtain ⟨s, hs⟩ := h1 os (h os (by simp))
    obtain ⟨r, hr⟩ := ih (fun o ho => h o (by simp [ho]))
    exact ⟨_, by rw [mphEntries, hs, Outcome.ok_bind, hr]; rfl⟩

/-- The header is read exactly from a text header of 5114 bytes followed by a packet that announces the
sum of the lengths of its parts; exactly these bytes are consumed.  The text header must contain a NUL byte
in its last entry (see `C31_violated_text_header`). -/
theorem C31_header_partial (text s rest : Bytes) (ht : text.length = 5114) (h0 : (0 : UInt8) ∈ text.drop 5034) :
    (∃ mph lbuf l15, readNativeHeader (text ++ s) = .ok ((mph, lbuf, l15), rest)) ↔
      ∃ lbuf l15, s = lbuf ++ l15 ++ rest ∧ Announces lbuf l15.length ∧
        l15.length = 1 + 60134 + 700 + 326058 + 101 + 20815 + 17653 + 19786 := by
  have hlen : headerLen = 1 + 60134 + 700 + 326058 + 101 + 20815 + 17653 + 19786 := by decide
  obtain ⟨mph, hm⟩ : ∃ r, readMph text = .ok r := by
    apply mphEntries_ok
    · intro o ho
      have e : text.drop 5034 = (text.drop o).drop (5034 - o) := by
        rw [List.drop_drop]; congr 1; omega
      rw [e] at h0
      exact List.mem_of_mem_drop h0
    · decide +kernel
  have e : readNativeHeader (text ++ s) = (readPacket headerLen s >>= fun r => .ok ((mph, r.1.1, r.1.2), r.2)) := by
    unfold readNativeHeader
    rw [readN_append _ _ mphLen ht]
    simp only [Outcome.ok_bind]
    rw [hm, Outcome.ok_bind, C31_consecutive.2.1]
    cases h : readPacket headerLen s with
    | ok x => rw [Outcome.ok_bind]; exact if_neg (show ¬ 445248 ≠ headerLen by decide)
    | _ => rfl
  rw [e, ← hlen]
  constructor
  · rintro ⟨m, lbuf, l15, h⟩
    obtain ⟨⟨⟨a, b⟩, c⟩, h1, h2⟩ := Outcome.of_bind_ok h
    simp only [Outcome.ok.injEq, Prod.mk.injEq] at h2
    obtain ⟨⟨_, rfl, rfl⟩, rfl⟩ := h2
    obtain ⟨h3, h4, h5⟩ := (readPacket_ok_iff (by decide) _ _ _ _).1 h1
    exact ⟨_, _, h3, h5 ▸ h4, h5⟩
  · rintro ⟨lbuf, l15, h3, h4, h5⟩
    refine ⟨mph, lbuf, l15, ?_⟩
    rw [(readPacket_ok_iff (by decide) _ _ _ _).2 ⟨h3, h5 ▸ h4, h5⟩]
    rfl

example : ∃ lbuf : Bytes, Announces lbuf 380325 :=
  ⟨List.replicate 18 0 ++ encBE 4 380340 ++ List.replicate 16 0, by unfold Announces; decide +kernel⟩

/-- The entries of the text header are taken with the C string functions: a text header without any NUL byte
(the documented format is lines of text) is read beyond its end. -/
theorem C31_violated_text_header (text s : Bytes) (ht : text.length = 5114) (h0 : (0 : UInt8) ∉ text) :
    readNativeHeader (text ++ s) = .ub := by
  have hm : readMph text = .ub := by
    unfold readMph mphOffsets
    rw [List.cons_append, mphEntries, mphEntry, cstr, if_neg (by simpa using h0)]
    rfl
  unfold readNativeHeader
  rw [readN_append _ _ mphLen ht]
  simp only [Outcome.ok_bind]
  rw [hm]
  rfl

end Msat.Props
