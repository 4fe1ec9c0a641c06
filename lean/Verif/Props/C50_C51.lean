import Verif.Lemmas.OpenMTP

/-
C50 OpenMTP products are classified consistently.
C51 OpenMTP readers stay within their buffers.
C64 The pixels of an OpenMTP file are recovered.
-/
namespace Msat.Props
open Msat Mtp MtpSpec Spec

/-! ## C50 -/

/-- A header that a reader can hold. -/
def IsHeader (header : Bytes) : Prop := header.length = 192999

/-- The code of the channel is the field at offset 40, and it alone decides the kind of channel: exactly one kind for the
codes 1 to 7, with the documented name and unit; none for others, for which asking name and unit throws. -/
theorem C50_channels (header : Bytes) (hh : IsHeader header) :
    (isVisData header = true ↔ channelName (field header 40) = some "VIS") ∧
    (isIrData header = true ↔ channelName (field header 40) = some "IR") ∧
    (isWvData header = true ↔ channelName (field header 40) = some "WV") ∧
    (∀ name, getChname header = .ok name ↔ channelName (field header 40) = some name) ∧
    (∀ u, getChunit header = .ok u ↔ channelUnit (field header 40) = some u) ∧
    ((getChname header).Throws ↔ ¬ (1 ≤ field header 40 ∧ field header 40 ≤ 7)) ∧
    ((getChunit header).Throws ↔ ¬ (1 ≤ field header 40 ∧ field header 40 ≤ 7)) := by
  have hf : int4 header 40 = field header 40 := int4_field (by rw [hh]; decide)
  unfold getChname getChunit isVisData isIrData isWvData isVISsData isVISnData isVisibleComposite isIr1Data isIr2Data
    isWv1Data isWv2Data
  rw [hf]
  generalize field header 40 = c
  by_cases h : 1 ≤ c ∧ c ≤ 7
  · have : c = 1 ∨ c = 2 ∨ c = 3 ∨ c = 4 ∨ c = 5 ∨ c = 6 ∨ c = 7 := by omega
    rcases this with rfl | rfl | rfl | rfl | rfl | rfl | rfl <;>
      simp [channelName, channelUnit, Outcome.Throws]
  · have e : ∀ k, 1 ≤ k → k ≤ 7 → (c == k) = false := by
      intro k h1 h2
      rw [beq_eq_false_iff_ne]
      omega
    rw [e 1 (by omega) (by omega), e 2 (by omega) (by omega), e 3 (by omega) (by omega), e 4 (by omega) (by omega),
      e 5 (by omega) (by omega), e 6 (by omega) (by omega), e 7 (by omega) (by omega)]
    have hn : channelName c = none := by
      unfold channelName
      rw [if_neg (by omega), if_neg (by omega), if_neg (by omega)]
    simp [channelUnit, hn, Outcome.Throws, h]

/-- `is_A_format` tells the full disk, `is_B_format` the B format, and no product is both. -/
theorem C50_formats_partial (header : Bytes) (hh : IsHeader header) :
    (isAFormat header = true ↔ FullDisk (field header 40) (field header 131) (field header 135)) ∧
    (isBFormat header = true ↔ FormatB (field header 40) (field header 131) (field header 135) (field header 123)) ∧
    ¬ (isAFormat header = true ∧ isBFormat header = true) := by
  have h1 : int4 header 40 = field header 40 := int4_field (by rw [hh]; decide)
  have h2 : int4 header 131 = field header 131 := int4_field (by rw [hh]; decide)
  have h3 : int4 header 135 = field header 135 := int4_field (by rw [hh]; decide)
  have h4 : int4 header 123 = field header 123 := int4_field (by rw [hh]; decide)
  have A : isAFormat header = true ↔ FullDisk (field header 40) (field header 131) (field header 135) := by
    unfold isAFormat isIrData isWvData isVisibleComposite isIr1Data isIr2Data isWv1Data isWv2Data nlines npixels FullDisk
    rw [h1, h2, h3]
    generalize field header 40 = c, field header 131 = l, field header 135 = p
    simp only [Bool.ite_eq_true_distrib, Bool.and_eq_true, Bool.or_eq_true, beq_iff_eq]
    split
    · simp only [true_iff]; omega
    · split
      · simp only [true_iff]; omega
      · simp only [Bool.false_eq_true, false_iff]; omega
  have B : isBFormat header = true ↔
      FormatB (field header 40) (field header 131) (field header 135) (field header 123) := by
    unfold isBFormat isIrData isWvData isVisibleComposite isIr1Data isIr2Data isWv1Data isWv2Data nlines npixels firstLine
      FormatB
    rw [h1, h2, h3, h4]
    generalize field header 40 = c, field header 131 = l, field header 135 = p, field header 123 = f
    simp only [Bool.ite_eq_true_distrib, Bool.and_eq_true, Bool.or_eq_true, beq_iff_eq]
    split
    · simp only [true_iff]; omega
    · split
      · simp only [true_iff]; omega
      · simp only [Bool.false_eq_true, false_iff]; omega
  refine ⟨A, B, ?_⟩
  rw [A, B]
  unfold FullDisk FormatB
  omega

/-- OpenMTP: `is_subwindow` is true of every product, also of full disks and of the B format: `!A || !B` is written
where `!A && !B` is meant. -/
theorem C50_violated_subwindow (header : Bytes) (hh : IsHeader header) : isSubwindow header = true := by
  have := (C50_formats_partial header hh).2.2
  unfold isSubwindow
  cases h : isAFormat header <;> cases h' : isBFormat header <;> simp_all

/-- A header with some fields. -/
def headerWith (code first lines pixels : Nat) : Bytes :=
  List.replicate 40 0 ++ encBE 4 code ++ List.replicate 79 0 ++ encBE 4 first ++ List.replicate 4 0 ++
    encBE 4 lines ++ encBE 4 pixels ++ List.replicate (192999 - 139) 0

theorem headerWith_isHeader (code first lines pixels : Nat) : IsHeader (headerWith code first lines pixels) := by
  unfold IsHeader headerWith
  simp only [List.length_append, List.length_replicate, encBE_length]

/-- There are full disks and B formats. -/
example : isAFormat (headerWith 4 1 2500 2500) = true ∧ isBFormat (headerWith 3 3620 1250 2500) = true ∧
    getChname (headerWith 6 1 1 1) = .ok "WV" ∧ (getChname (headerWith 9 1 1 1)).Throws := by
  decide +kernel

/-! ## C51 -/

/-- Reading a binary header, whatever the file contains, either gives a header of the size of its buffer or ends the
program because the file is too short; it never stores elsewhere. -/
theorem C51_header (file : Bytes) :
    (∃ header rest, binaryRead file = .ok (header, rest) ∧ IsHeader header) ∨ binaryRead file = .terminate := by
  obtain ⟨h1, h2⟩ := binaryRead_spec file
  by_cases h : file.length < 5175 + 2636 + third file
  · exact .inr (h2 h)
  · obtain ⟨header, e, l, _⟩ := h1 (by omega)
    exact .inl ⟨header, _, e, l⟩

theorem read_new (file : Bytes) (hs : Sensible file) :
    (Complete file → ∃ p image, read Product.new file = .ok p ∧ p.image = some image ∧ p.header.length = 192999 ∧
      p.line.length = 5032 ∧ image.length = (lineCount file).toNat * (pixelCount file).toNat ∧
      ∀ i < (lineCount file).toNat, ∀ j < (pixelCount file).toNat,
        image[i * (pixelCount file).toNat + j]? = pixel file i j) ∧
    (¬ Complete file → read Product.new file = .terminate) := by
  obtain ⟨r1, r2⟩ := read_spec Product.new file
  unfold Complete
  by_cases hl : file.length < imageStart file
  · exact ⟨fun h => absurd h (by omega), fun _ => r2 hl⟩
  obtain ⟨header, e, l, n1, n2⟩ := r1 (by omega)
  rw [e]
  unfold imageRead
  rw [n1, n2]
  obtain ⟨s1, s2, s3, s4⟩ := hs
  unfold pixel
  generalize imageStart file = start at *
  generalize hL : lineCount file = L at *
  generalize hP : pixelCount file = P at *
  obtain ⟨np, rfl⟩ : ∃ np : Nat, P = np := ⟨P.toNat, by omega⟩
  obtain ⟨nl, rfl⟩ : ∃ nl : Nat, L = nl := ⟨L.toNat, by omega⟩
  simp only [Int.toNat_natCast]
  have hn : newImage nl np = .ok (List.replicate (nl * np) 0) := by
    unfold newImage
    rw [← Int.natCast_mul] at s4 ⊢
    rw [if_neg (by omega), if_neg (by omega), Int.toNat_natCast]
  have hi : ensureImage Product.new.image nl np = .ok (List.replicate (nl * np) 0) := hn
  rw [hi, Outcome.ok_bind]
  have hline : Product.new.line.length = 5032 := List.length_replicate
  obtain ⟨f1, f2⟩ := readLines_spec np (by omega) nl 0 (List.replicate (nl * np) 0) Product.new.line (file.drop start)
    (by rw [List.length_replicate, Nat.zero_add]) hline
  refine ⟨fun h => ?_, fun h => ?_⟩
  · obtain ⟨image, line, g1, g2, g3, _, g5⟩ := f1 (by rw [List.length_drop]; omega)
    refine ⟨⟨header, some image, line⟩, image, ?_, rfl, l, g3, ?_, ?_⟩
    · rw [g1, Outcome.ok_bind]
      rfl
    · rw [g2, List.length_replicate]
    · intro i hi j hj
      have := g5 i hi j hj
      rw [Nat.zero_add] at this
      rw [this, List.getElem?_drop]
      clear * -
      refine congrArg (fun x => file[x]?) ?_
      omega
  · rw [f2 (by rw [List.length_drop]; omega)]
    rfl

/-- A new object reading a file with at most 5000 pixels in a line, dimensions that are not negative and less than 2^31
pixels: an image is read, or the program ends because the file is too short; nothing is stored elsewhere.  Missing
for the full property: other dimensions, and objects used again. -/
theorem C51_image_partial (file : Bytes) (hs : Sensible file) :
    (∃ p, read Product.new file = .ok p) ∨ read Product.new file = .terminate := by
  by_cases h : Complete file
  · obtain ⟨p, _, e, _⟩ := (read_new file hs).1 h
    exact .inl ⟨p, e⟩
  · exact .inr ((read_new file hs).2 h)

/-- In particular every file of the A and B formats. -/
theorem C51_formats (file : Bytes)
    (h : FullDisk (field file (1345 + 40)) (lineCount file) (pixelCount file) ∨
      FormatB (field file (1345 + 40)) (lineCount file) (pixelCount file) (field file (1345 + 123))) :
    (∃ p, read Product.new file = .ok p) ∨ read Product.new file = .terminate := by
  apply C51_image_partial
  unfold Sensible
  unfold FullDisk FormatB at h
  generalize lineCount file = l at *
  generalize pixelCount file = p at *
  rcases h with (⟨_, _, rfl, rfl⟩ | ⟨_, rfl, rfl⟩) | (⟨_, _, rfl, rfl, _⟩ | ⟨_, rfl, rfl, _⟩) <;> omega

/-- OpenMTP: the array for a line has 5032 bytes, but the number of pixels is taken from the header without a check:
lines of more than 5000 pixels are stored beyond the end of the array. -/
theorem C51_violated_long_line (file : Bytes) (h1 : 1 ≤ lineCount file) (h2 : 5000 < pixelCount file)
    (h3 : lineCount file * pixelCount file < 2 ^ 31) (hc : Complete file) : read Product.new file = .ub := by
  unfold Complete at hc
  obtain ⟨header, e, _, n1, n2⟩ := (read_spec Product.new file).1 (by omega)
  rw [e]
  unfold imageRead
  rw [n1, n2]
  generalize lineCount file = L at *
  generalize pixelCount file = P at *
  obtain ⟨np, rfl⟩ : ∃ np : Nat, P = np := ⟨P.toNat, by omega⟩
  obtain ⟨nl, rfl⟩ : ∃ nl : Nat, L = (nl + 1 : Nat) := ⟨(L - 1).toNat, by omega⟩
  have hn : ensureImage Product.new.image (nl + 1 : Nat) np = .ok (List.replicate ((nl + 1) * np) 0) := by
    show newImage _ _ = _
    unfold newImage
    rw [← Int.natCast_mul] at h3 ⊢
    rw [if_neg (by omega), if_neg (by omega), Int.toNat_natCast]
  rw [hn, Outcome.ok_bind]
  rw [Int.toNat_natCast] at hc ⊢
  rw [Int.toNat_natCast] at hc
  have hline : Product.new.line.length = 5032 := List.length_replicate
  generalize Product.new.line = line at *
  have : lineRead line np (file.drop (imageStart file)) = .ub := by
    unfold lineRead readAt
    have := Nat.mul_le_mul_right (np + 32) (show 1 ≤ nl + 1 by omega)
    by_cases hp : (2 : Int) ^ 31 ≤ np + 32
    · rw [if_pos hp]
    · rw [if_neg hp, if_neg (by omega), if_pos (by rw [List.length_drop]; omega)]
  unfold readLines
  rw [this]
  rfl

/-- OpenMTP: the size of the image is a product of two `int` taken from the header, which may overflow. -/
theorem C51_violated_size (file : Bytes) (h1 : 2 ^ 31 ≤ lineCount file * pixelCount file)
    (hc : imageStart file ≤ file.length) : read Product.new file = .ub := by
  obtain ⟨header, e, _, n1, n2⟩ := (read_spec Product.new file).1 hc
  rw [e]
  unfold imageRead
  rw [n1, n2]
  have hn : ensureImage Product.new.image (lineCount file) (pixelCount file) = .ub := by
    show newImage _ _ = _
    unfold newImage
    rw [if_pos (.inr h1)]
  rw [hn]
  rfl

theorem readLines_ub (np : Nat) (hnp : np ≤ 5000) : ∀ (n i : Nat) (image line file : Bytes),
    image.length < (i + n) * np → line.length = 5032 → n * (np + 32) ≤ file.length → i * np ≤ image.length →
    readLines np n i image line file = .ub := by
  intro n
  induction n with
  | zero =>
    intro i image line file h1 _ _ h4
    rw [Nat.add_zero] at h1
    omega
  | succ n ih =>
    intro i image line file h1 h2 h3 h4
    have hm : (n + 1) * (np + 32) = n * (np + 32) + (np + 32) := by ring
    have hm3 : (i + 1) * np = i * np + np := by ring
    have he : readLines np (n + 1) i image line file = (do
        let (line, file) ← readAt line 0 (np + 32 : Nat) file
        let image ← copyLine image line i np
        readLines np n (i + 1) image line file) := by
      show (lineRead line np file >>= _) = _
      unfold lineRead
      rw [if_neg (by omega)]
      rfl
    rw [he, readAt_ok (by omega) (by omega), Outcome.ok_bind]
    have l1 := stored_length (buf := line) (file := file) (off := 0) (n := np + 32) (by omega) (by omega)
    generalize line.take 0 ++ file.take (np + 32) ++ line.drop (0 + (np + 32)) = line1 at l1
    dsimp only
    by_cases hlt : image.length < (i + 1) * np
    · have : copyLine image line1 i np = .ub := by
        unfold copyLine
        rw [if_neg (by omega), if_pos (.inr (by rw [Int.toNat_natCast]; exact hlt))]
      rw [this]
      rfl
    · have : copyLine image line1 i np =
          .ok (image.take (i * np) ++ (line1.drop 32).take np ++ image.drop (i * np + np)) := by
        unfold copyLine
        rw [if_neg (by omega), if_neg (by rw [Int.toNat_natCast]; omega), Int.toNat_natCast, hm3]
      rw [this, Outcome.ok_bind]
      have hl32 : np ≤ (line1.drop 32).length := by rw [List.length_drop]; omega
      have l2 := stored_length (buf := image) (file := line1.drop 32) (off := i * np) (n := np) (by omega) hl32
      apply ih
      · rw [l2, show i + 1 + n = i + (n + 1) by omega]
        exact h1
      · omega
      · rw [List.length_drop]
        omega
      · omega

/-- OpenMTP: an object that has read an image keeps its memory when it reads a file with more pixels: they are stored
beyond its end. -/
theorem C51_violated_reuse (a b : Bytes) (ha : Sensible a) (ca : Complete a) (hb : Sensible b) (cb : Complete b)
    (h : lineCount a * pixelCount a < lineCount b * pixelCount b) :
    ∃ p, read Product.new a = .ok p ∧ read p b = .ub := by
  obtain ⟨p, image, e, hi, _, hline, hl, _⟩ := (read_new a ha).1 ca
  refine ⟨p, e, ?_⟩
  unfold Complete at cb
  obtain ⟨header, e, _, n1, n2⟩ := (read_spec p b).1 (by omega)
  obtain ⟨s1, s2, s3, s4⟩ := hb
  obtain ⟨t1, t2, t3, t4⟩ := ha
  rw [e]
  unfold imageRead
  rw [n1, n2, hi]
  show ((readLines (pixelCount b) (lineCount b).toNat 0 image p.line _ >>= _) >>= _) = _
  generalize lineCount b = L at *
  generalize pixelCount b = P at *
  generalize lineCount a = L' at *
  generalize pixelCount a = P' at *
  obtain ⟨np, rfl⟩ : ∃ np : Nat, P = np := ⟨P.toNat, by omega⟩
  obtain ⟨nl, rfl⟩ : ∃ nl : Nat, L = nl := ⟨L.toNat, by omega⟩
  obtain ⟨np', rfl⟩ : ∃ np : Nat, P' = np := ⟨P'.toNat, by omega⟩
  obtain ⟨nl', rfl⟩ : ∃ nl : Nat, L' = nl := ⟨L'.toNat, by omega⟩
  simp only [Int.toNat_natCast] at *
  rw [← Int.natCast_mul, ← Int.natCast_mul] at h
  rw [readLines_ub np (by omega) nl 0 image p.line (b.drop (imageStart b)) (by rw [hl, Nat.zero_add]; omega) hline
    (by rw [List.length_drop]; omega) (by omega)]
  rfl

/-! Files that meet the hypotheses. -/

/-- A file of 1345 blanks, a binary header with the given channel, numbers of lines and pixels, and lines. -/
def fileWith (code lines pixels : Nat) (data : Bytes) : Bytes :=
  List.replicate 1385 32 ++ (encBE 4 code ++ (List.replicate 87 32 ++ (encBE 4 lines ++ (encBE 4 pixels ++
    (List.replicate 144376 32 ++ data)))))

theorem field_append {pre rest : Bytes} {v : Nat} {off : Nat} (h : pre.length = off) :
    field (pre ++ (encBE 4 v ++ rest)) off = signed 32 (beVal (encBE 4 v)) := by
  subst h
  unfold field
  rw [List.drop_left, List.take_left' (encBE_length 4 v)]

theorem field_skip {pre rest : Bytes} {off k : Nat} (h : pre.length = k) :
    field (pre ++ rest) (k + off) = field rest off := by
  subst h
  unfold field
  rw [← List.drop_drop, List.drop_left]

theorem fileWith_facts (code lines pixels : Nat) (data : Bytes) (h1 : code < 2 ^ 31) (h0 : code ≠ 3) (h2 : lines < 2 ^ 31)
    (h3 : pixels < 2 ^ 31) :
    imageStart (fileWith code lines pixels data) = 145860 ∧ lineCount (fileWith code lines pixels data) = lines ∧
    pixelCount (fileWith code lines pixels data) = pixels ∧
    (fileWith code lines pixels data).length = 145860 + data.length := by
  have num : ∀ v : Nat, v < 2 ^ 31 → signed 32 (beVal (encBE 4 v)) = v := by
    intro v hv
    rw [beVal_encBE_of_lt (by omega)]
    unfold signed
    rw [if_pos hv]
  have r1 : (List.replicate 1385 (32 : UInt8)).length = 1385 := List.length_replicate
  have r2 : (List.replicate 87 (32 : UInt8)).length = 87 := List.length_replicate
  have r3 : (List.replicate 144376 (32 : UInt8)).length = 144376 := List.length_replicate
  unfold imageStart lineCount pixelCount fileWith
  generalize List.replicate 1385 (32 : UInt8) = a at *
  generalize List.replicate 87 (32 : UInt8) = b at *
  generalize List.replicate 144376 (32 : UInt8) = c at *
  refine ⟨?_, ?_, ?_, ?_⟩
  · rw [field_append r1, num _ h1, if_neg (by omega)]
  · rw [show 1345 + 131 = 1385 + (4 + (87 + 0)) by rfl, field_skip r1, field_skip (encBE_length 4 code), field_skip r2,
      ← List.nil_append (encBE 4 lines ++ _), field_append (off := 0) List.length_nil, num _ h2]
  · rw [show 1345 + 135 = 1385 + (4 + (87 + (4 + 0))) by rfl, field_skip r1, field_skip (encBE_length 4 code), field_skip r2,
      field_skip (encBE_length 4 lines), ← List.nil_append (encBE 4 pixels ++ _), field_append (off := 0) List.length_nil, num _ h3]
  · simp only [List.length_append, encBE_length, r1, r2, r3]
    omega

/-- There are such files: with a line that is too long, with dimensions that are too large, and of one pixel and of two
pixels. -/
example : read Product.new (fileWith 4 1 5001 (List.replicate 5033 7)) = .ub ∧
    read Product.new (fileWith 4 65536 40000 []) = .ub ∧
    ∃ p, read Product.new (fileWith 4 1 1 (List.replicate 33 7)) = .ok p ∧
      read p (fileWith 4 1 2 (List.replicate 34 7)) = .ub := by
  obtain ⟨a1, a2, a3, a4⟩ := fileWith_facts 4 1 5001 (List.replicate 5033 7) (by omega) (by omega) (by omega) (by omega)
  obtain ⟨b1, b2, b3, b4⟩ := fileWith_facts 4 65536 40000 [] (by omega) (by omega) (by omega) (by omega)
  obtain ⟨c1, c2, c3, c4⟩ := fileWith_facts 4 1 1 (List.replicate 33 7) (by omega) (by omega) (by omega) (by omega)
  obtain ⟨d1, d2, d3, d4⟩ := fileWith_facts 4 1 2 (List.replicate 34 7) (by omega) (by omega) (by omega) (by omega)
  rw [List.length_replicate] at a4 c4 d4
  refine ⟨C51_violated_long_line _ ?_ ?_ ?_ ?_, C51_violated_size _ ?_ ?_, C51_violated_reuse _ _ ?_ ?_ ?_ ?_ ?_⟩ <;>
    simp only [Sensible, Complete, a1, a2, a3, a4, b1, b2, b3, b4, c1, c2, c3, c4, d1, d2, d3, d4, List.length_nil] <;> decide

/-- `is_line_present` reads outside of the header for a line that is not in the table. -/
theorem C51_violated_line_table (header : Bytes) (hh : IsHeader header) : isLinePresent header (-156) = .ub ∧
    isLinePresent header 192844 = .ub := by
  unfold isLinePresent
  rw [hh]
  exact ⟨by rw [if_neg (by omega)], by rw [if_neg (by omega)]⟩

/-- For the 2500 lines of the table it tells what the table says. -/
theorem C51_line_table (header : Bytes) (hh : IsHeader header) (i : Nat) (hi : i < 2500) :
    ∃ b, header[155 + i]? = some b ∧ isLinePresent header i = .ok (decide (b ≠ 0)) := by
  have hlt : 155 + i < header.length := by rw [hh]; omega
  refine ⟨header[155 + i], List.getElem?_eq_getElem hlt, ?_⟩
  unfold isLinePresent
  rw [if_pos (by omega), show (155 + (i : Int)).toNat = 155 + i by omega, getD_eq, List.getElem?_eq_getElem hlt]
  generalize header[155 + i] = b
  show Outcome.ok (decide (b.toNat > 0)) = _
  congr 1
  rw [decide_eq_decide, Ne, ← UInt8.toNat_inj]
  show b.toNat > 0 ↔ ¬ b.toNat = 0
  omega

/-! ## C64 -/

/-- A complete file with sensible dimensions is read, and pixel `j` of line `i` of the image is the byte at its place
in the file. -/
theorem C64_pixels (file : Bytes) (hs : Sensible file) (hc : Complete file) :
    ∃ p image, read Product.new file = .ok p ∧ p.image = some image ∧
      image.length = (lineCount file).toNat * (pixelCount file).toNat ∧
      ∀ i < (lineCount file).toNat, ∀ j < (pixelCount file).toNat,
        ∃ v, image[i * (pixelCount file).toNat + j]? = some v ∧ pixel file i j = some v := by
  obtain ⟨p, image, e, hi, _, _, hl, hp⟩ := (read_new file hs).1 hc
  refine ⟨p, image, e, hi, hl, fun i hi j hj => ?_⟩
  have hlt : i * (pixelCount file).toNat + j < image.length := by
    rw [hl]
    calc i * (pixelCount file).toNat + j < i * (pixelCount file).toNat + (pixelCount file).toNat := by omega
      _ = (i + 1) * (pixelCount file).toNat := by ring
      _ ≤ _ := Nat.mul_le_mul_right _ hi
  refine ⟨image[i * (pixelCount file).toNat + j], List.getElem?_eq_getElem hlt, ?_⟩
  rw [← hp i hi j hj, List.getElem?_eq_getElem hlt]

/-- A file that is cut short never gives an image. -/
theorem C64_truncated (file : Bytes) (hs : Sensible file) (hc : ¬ Complete file) (p : Product) :
    read Product.new file ≠ .ok p := by
  rw [(read_new file hs).2 hc]
  intro h
  cases h

/-- A file of two lines of three pixels. -/
def sampleLines : Bytes := List.replicate 32 9 ++ [1, 2, 3] ++ List.replicate 32 9 ++ [4, 5, 6]

def sampleFile : Bytes := fileWith 4 2 3 sampleLines

example : Sensible sampleFile ∧ Complete sampleFile ∧ pixel sampleFile 1 2 = some 6 ∧ pixel sampleFile 0 1 = some 2 := by
  obtain ⟨a1, a2, a3, a4⟩ := fileWith_facts 4 2 3 sampleLines
    (by omega) (by omega) (by omega) (by omega)
  have hd : ∀ x, sampleFile[145860 + x]? = sampleLines[x]? := by
    intro x
    unfold sampleFile fileWith
    rw [← List.append_assoc, ← List.append_assoc, ← List.append_assoc, ← List.append_assoc, ← List.append_assoc,
      List.getElem?_append_right]
    · refine congrArg (fun y => sampleLines[y]?) ?_
      simp only [List.length_append, List.length_replicate, encBE_length]
      omega
    · simp only [List.length_append, List.length_replicate, encBE_length]
      omega
  have e1 : imageStart sampleFile = 145860 := a1
  have e2 : lineCount sampleFile = 2 := a2
  have e3 : pixelCount sampleFile = 3 := a3
  have e4 : sampleFile.length = 145860 + 70 := a4
  unfold Sensible Complete pixel
  rw [e1, e2, e3, e4, show 145860 + 1 * ((3 : Int).toNat + 32) + 32 + 2 = 145860 + 69 by rfl,
    show 145860 + 0 * ((3 : Int).toNat + 32) + 32 + 1 = 145860 + 33 by rfl, hd, hd]
  decide

end Msat.Props
