import Verif.Lemmas.OpenMtpHeader

/-
C101: the members of the binary header of OpenMTP files.
-/
namespace Msat.Props
open Msat Spec MtpHeader MtpHeaderSpec MtpHeaderLemmas

/-- Every accessor that gives a number gives the value of its member in the file, whatever the values are: those of the
first section of all products, of the second section of products that are not rectified, and of the third section, whose
last part only composites have.  What a product does not have is zero. -/
theorem C101_numbers (c : Content) (hc : Fits c) (rest : Bytes) :
    ∃ header, Mtp.binaryRead (headerBytes c ++ rest) = .ok (header, rest) ∧
      List.Forall₂ (fun a p => a.name = p.1 ∧ a.call header = kept c p.2 0) values numberOf := by
  refine ⟨memory c, binaryRead_memory hc rest, ?_⟩
  have h : List.Forall₂ (fun (a : Value) (p : String × String) => a.name = p.1 ∧ a.get ≠ .flag ∧ agrees a.get a.off 0 1 p.2 = true)
      values numberOf := by decide +kernel
  refine h.imp fun a p ⟨h1, h2, h3⟩ => ⟨h1, ?_⟩
  have := agrees_value hc h3 0 (by decide)
  rw [if_neg h2] at this
  exact this

/-- How many values of a member the arrays show: all but the last 236 of the histograms. -/
def available101 : String → Nat → Nat := fun name n => if name = "Hist1" ∨ name = "Hist2" then 20 else n

/-- Every accessor that gives an array gives the values of its member in the file, whatever was called before, as long as
they are read before it is called again; but the histograms only show their first 20 values, and the times of the scan
lines of the horizon are not those of the file.  The status bytes are shown as flags. -/
theorem C101_arrays_partial (c : Content) (hc : Fits c) (rest : Bytes) :
    ∃ header, Mtp.binaryRead (headerBytes c ++ rest) = .ok (header, rest) ∧
      List.Forall₂ (fun a p => a.name = p.1 ∧ (p.2 ≠ "Hortim" → ∃ m ∈ first ++ second ++ third ++ composite, m.name = p.2 ∧
        ∀ i < available101 p.2 m.count, ∀ s, a.element (a.call header s) i = .ok (shown p.2 (kept c p.2 i)))) arrays arrayOf := by
  refine ⟨memory c, binaryRead_memory hc rest, ?_⟩
  have h : List.Forall₂ (fun (a : MtpHeader.Array) (p : String × String) => a.name = p.1 ∧ (a.get = .flag ↔ p.2 = "Status") ∧
      (p.2 ≠ "Hortim" → (locate all p.2).any (fun m => decide (available101 p.2 m.2.count ≤ a.read ∧ available101 p.2 m.2.count ≤ a.len) &&
        agrees a.get a.off a.step (available101 p.2 m.2.count) p.2) = true))
      arrays arrayOf := by decide +kernel
  refine h.imp fun a p ⟨h1, h2, h3⟩ => ⟨h1, fun hn => ?_⟩
  have h3 := h3 hn
  rw [Option.any_eq_true] at h3
  obtain ⟨⟨s, m⟩, hl, h3⟩ := h3
  rw [Bool.and_eq_true, decide_eq_true_eq] at h3
  obtain ⟨⟨h4, h5⟩, h6⟩ := h3
  dsimp only at h4 h5 h6
  obtain ⟨e1, e2, _⟩ := locate_spec hl (kept c) []
  refine ⟨m, e2, e1, fun i hi s => ?_⟩
  have := agrees_value hc h6 i hi
  unfold Array.element Array.call
  rw [if_pos (by omega), if_pos ⟨rfl, by omega⟩, this]
  unfold shown
  simp only [h2]

/-- Every accessor that gives a text gives the bytes of its member in the file and then a zero. -/
theorem C101_texts (c : Content) (hc : Fits c) (rest : Bytes) :
    ∃ header, Mtp.binaryRead (headerBytes c ++ rest) = .ok (header, rest) ∧
      List.Forall₂ (fun t p => t.name = p.1 ∧ ∃ m ∈ first, m.name = p.2 ∧
        (∀ i < m.count, ∀ s, t.element (t.call header s) i = .ok (c p.2 i)) ∧
        ∀ s, t.element (t.call header s) m.count = .ok 0) texts textOf := by
  refine ⟨memory c, binaryRead_memory hc rest, ?_⟩
  have h : List.Forall₂ (fun (t : Text) (p : String × String) => t.name = p.1 ∧
      (locate first p.2).any (fun m => decide (m.2.count = t.n) && agrees .byte t.off 1 m.2.count p.2) = true)
      texts textOf := by decide +kernel
  have hk : ∀ m ∈ first, ∀ i, kept c m.name i = c m.name i := by
    intro m hm i
    have h : ∀ m ∈ first, m.name ∉ second.map (·.name) ∧ m.name ∉ composite.map (·.name) := by decide +kernel
    unfold kept
    rw [if_neg (fun e => (h m hm).1 e.2), if_neg (fun e => (h m hm).2 e.2)]
  refine h.imp fun t p ⟨h1, h3⟩ => ⟨h1, ?_⟩
  rw [Option.any_eq_true] at h3
  obtain ⟨⟨s, m⟩, hl, h3⟩ := h3
  rw [Bool.and_eq_true, decide_eq_true_eq] at h3
  obtain ⟨h4, h6⟩ := h3
  dsimp only at h4 h6
  obtain ⟨e1, e2, _⟩ := locate_spec hl (kept c) []
  refine ⟨m, e2, e1, fun i hi s => ?_, fun s => ?_⟩
  · have := agrees_value hc h6 i hi
    rw [Nat.mul_one, if_neg (by decide)] at this
    unfold Text.element Text.call
    rw [if_pos (by omega), if_pos ⟨rfl, by omega⟩, this, ← e1, hk m e2]
  · unfold Text.element Text.call
    rw [if_pos (by omega), if_neg (by omega), if_pos ⟨rfl, h4⟩]

/-- Every test tells whether its member has the value that it is named after, `is_rectified` whether the product is
rectified, and the tests of the status whether their byte is not zero. -/
theorem C101_tests (c : Content) (hc : Fits c) (rest : Bytes) :
    ∃ header, Mtp.binaryRead (headerBytes c ++ rest) = .ok (header, rest) ∧
      (∀ p ∈ codeOf, ∃ t ∈ tests, t.name = p.1 ∧ (t.call header = true ↔ kept c p.2.1 0 = p.2.2)) ∧
      (∀ p ∈ statusOf, ∃ t ∈ tests, t.name = p.1 ∧ (t.call header = true ↔ kept c "Status" p.2 ≠ 0)) ∧
      (∃ t ∈ tests, t.name = "is_rectified" ∧ (t.call header = true ↔ Rectified c)) ∧
      ∀ t ∈ tests, t.name ∈ "is_rectified" :: (codeOf.map (·.1) ++ statusOf.map (·.1)) := by
  refine ⟨memory c, binaryRead_memory hc rest, ?_, ?_, ?_, by decide +kernel⟩
  · intro p hp
    have h : codeOf.all (fun p => (tests.find? fun t => decide (t.name = p.1)).any fun t =>
        decide (t.get = .int4) && decide (t.cmp = .eq p.2.2) && agrees .int4 t.off 0 1 p.2.1) = true := by decide +kernel
    have h := List.all_eq_true.mp h p hp
    rw [Option.any_eq_true] at h
    obtain ⟨t, ht, h⟩ := h
    simp only [Bool.and_eq_true, decide_eq_true_eq] at h
    obtain ⟨⟨h1, h2⟩, h3⟩ := h
    refine ⟨t, List.mem_of_find?_eq_some ht, by simpa using List.find?_some ht, ?_⟩
    have := agrees_value hc h3 0 (by decide)
    rw [if_neg (by decide), Nat.zero_mul, Nat.add_zero] at this
    unfold Test.call
    rw [h2, h1, this]
    exact beq_iff_eq
  · intro p hp
    have h : statusOf.all (fun p => (tests.find? fun t => decide (t.name = p.1)).any fun t =>
        decide (t.get = .byte) && decide (t.cmp = .gt 0) && decide (p.2 < 16) && decide (t.off = 7559 + p.2)) = true := by decide +kernel
    have h := List.all_eq_true.mp h p hp
    rw [Option.any_eq_true] at h
    obtain ⟨t, ht, h⟩ := h
    simp only [Bool.and_eq_true, decide_eq_true_eq] at h
    obtain ⟨⟨⟨h1, h2⟩, h3⟩, h4⟩ := h
    refine ⟨t, List.mem_of_find?_eq_some ht, by simpa using List.find?_some ht, ?_⟩
    have := agrees_value hc (g := .byte) (off := 7559) (step := 1) (count := 16) (name := "Status") (by decide +kernel) p.2 h3
    rw [if_neg (by decide), Nat.mul_one, ← h4] at this
    unfold Test.call
    rw [h2, h1]
    dsimp only
    rw [decide_eq_true_eq, ← this]
    unfold Get.value
    dsimp only
    omega
  · have h : (tests.find? fun t => decide (t.name = "is_rectified")).any (fun t =>
        decide (t.get = .int4) && decide (t.cmp = .gt 3) && decide (t.off = 36)) = true := by decide +kernel
    rw [Option.any_eq_true] at h
    obtain ⟨t, ht, h⟩ := h
    simp only [Bool.and_eq_true, decide_eq_true_eq] at h
    obtain ⟨⟨h1, h2⟩, h3⟩ := h
    refine ⟨t, List.mem_of_find?_eq_some ht, by simpa using List.find?_some ht, ?_⟩
    unfold Test.call
    rw [h2, h1, h3]
    dsimp only
    rw [decide_eq_true_eq]
    show Mtp.int4 (memory c) 36 > 3 ↔ _
    rw [memory_proc hc]
    rfl

/-- For the 2500 lines of its table `is_line_present_VISn` tells what the table in the file says. -/
theorem C101_line_table (c : Content) (hc : Fits c) (rest : Bytes) :
    ∃ header, Mtp.binaryRead (headerBytes c ++ rest) = .ok (header, rest) ∧
      ∀ i : Nat, i < 2500 → isLinePresentVISn header i = .ok (decide (c "Mlt2" i ≠ 0)) := by
  refine ⟨memory c, binaryRead_memory hc rest, fun i hi => ?_⟩
  have := agrees_value hc (g := .byte) (off := 2655) (step := 1) (count := 2500) (name := "Mlt2") (by decide +kernel) i hi
  rw [if_neg (by decide), Nat.mul_one] at this
  have hk : kept c "Mlt2" i = c "Mlt2" i := by
    unfold kept
    rw [if_neg (fun e => absurd e.2 (by decide +kernel)), if_neg (fun e => absurd e.2 (by decide +kernel))]
  rw [hk] at this
  unfold isLinePresentVISn
  rw [memory_length, if_pos (by omega), ← this]
  unfold Get.value
  dsimp only
  rw [show (2655 + (i : Int)).toNat = 2655 + i by omega]
  congr 1
  rw [decide_eq_decide]
  omega

/-- Violated: other indices of `is_line_present_VISn` are not checked, and are undefined outside of the header. -/
theorem C101_violated_line_table (header : Bytes) (hh : header.length = 192999) (i : Int) (hi : i < -2655 ∨ 190344 ≤ i) :
    isLinePresentVISn header i = .ub := by
  unfold isLinePresentVISn
  rw [hh, if_neg (by omega)]

/-- A call of one of the accessors. -/
def Known101 : Call → Prop
  | .array a _ => a ∈ arrays
  | .text t _ => t ∈ texts

theorem histogram_zero (name : String) (hn : name = "urect_raw_image_histogram" ∨ name = "urect_raw_image_histogram_VISn")
    (calls : List Call) (hk : ∀ k ∈ calls, Known101 k) (s : Statics) (i : Nat) (hi : 20 ≤ i) (hs : s name i = 0) :
    calls.foldl Call.run s name i = 0 := by
  have ha : ∀ a ∈ arrays, (a.name = "urect_raw_image_histogram" ∨ a.name = "urect_raw_image_histogram_VISn") → a.read = 20 := by
    decide +kernel
  have ht : ∀ t ∈ texts, t.name ≠ "urect_raw_image_histogram" ∧ t.name ≠ "urect_raw_image_histogram_VISn" := by decide +kernel
  induction calls generalizing s with
  | nil => exact hs
  | cons k calls ih =>
    refine ih (fun k h => hk k (List.mem_cons_of_mem _ h)) (Call.run s k) ?_
    have hk := hk k List.mem_cons_self
    cases k with
    | array a header =>
      show a.call header s name i = 0
      unfold Array.call
      by_cases h : name = a.name
      · have := ha a hk (by rw [← h]; exact hn)
        rw [if_neg (by omega)]
        exact hs
      · rw [if_neg (fun e => h e.1)]
        exact hs
    | text t header =>
      show t.call header s name i = 0
      have := ht t hk
      have h : name ≠ t.name := by
        rintro rfl
        rcases hn with hn | hn
        · exact this.1 hn
        · exact this.2 hn
      unfold Text.call
      rw [if_neg (fun e => h e.1), if_neg (fun e => h e.1)]
      exact hs

/-- Violated: whatever the file says and whatever has been called before, the last 236 values of the histograms are given
as zero. -/
theorem C101_violated_histogram (calls : List Call) (hk : ∀ k ∈ calls, Known101 k) (header : Bytes) (a : MtpHeader.Array)
    (ha : a ∈ arrays) (hn : a.name = "urect_raw_image_histogram" ∨ a.name = "urect_raw_image_histogram_VISn") (i : Nat)
    (hi : 20 ≤ i) (hl : i < 256) : a.element (a.call header (history calls)) i = .ok 0 := by
  have h : ∀ a ∈ arrays, (a.name = "urect_raw_image_histogram" ∨ a.name = "urect_raw_image_histogram_VISn") → a.len = 256 := by
    decide +kernel
  have e := histogram_zero a.name hn (calls ++ [.array a header])
    (by
      intro k h
      rw [List.mem_append, List.mem_singleton] at h
      rcases h with h | rfl
      · exact hk k h
      · exact ha) Statics.start i hi rfl
  rw [List.foldl_append] at e
  unfold Array.element
  rw [if_pos (by rw [h a ha hn]; exact hl)]
  exact congrArg Outcome.ok e

/-- Violated: the fourth value of the attitude at the start of the image is the first of the attitude at its end; the file
has three values of each. -/
theorem C101_violated_attitude (c : Content) (hc : Fits c) (rest : Bytes) :
    ∃ header, Mtp.binaryRead (headerBytes c ++ rest) = .ok (header, rest) ∧
      ∀ a ∈ arrays, a.name = "urec_cartesian_attitude_start" → ∀ s, a.element (a.call header s) 3 = .ok (kept c "Attl" 0) := by
  refine ⟨memory c, binaryRead_memory hc rest, fun a ha hn s => ?_⟩
  have h : ∀ a ∈ arrays, a.name = "urec_cartesian_attitude_start" →
      a.get = .float4 ∧ a.off + 3 * a.step = 7491 ∧ 3 < a.len ∧ 3 < a.read := by decide +kernel
  obtain ⟨h1, h2, h3, h4⟩ := h a ha hn
  have := agrees_value hc (g := .float4) (off := 7491) (step := 0) (count := 1) (name := "Attl") (by decide +kernel) 0 (by decide)
  unfold Array.element Array.call
  rw [if_pos h3, if_pos ⟨rfl, h4⟩, h1, h2]
  exact congrArg Outcome.ok this

/-- Violated: the times of the scan lines of the horizon are not those of the file, they are made of the bytes of the
limits of the horizon: each time of four of the limits. -/
theorem C101_violated_horizon (c : Content) (hc : Fits c) (rest : Bytes) :
    ∃ header, Mtp.binaryRead (headerBytes c ++ rest) = .ok (header, rest) ∧
      ∀ a ∈ arrays, a.name = "urec_times_of_horizon_scan_lines" → ∀ i < 2, ∀ s, a.element (a.call header s) i =
        .ok ((pattern 16 (kept c "Horlim" (4 * i)) * 2 ^ 48 + pattern 16 (kept c "Horlim" (4 * i + 1)) * 2 ^ 32 +
          pattern 16 (kept c "Horlim" (4 * i + 2)) * 2 ^ 16 + pattern 16 (kept c "Horlim" (4 * i + 3)) : Nat) : Int) := by
  refine ⟨memory c, binaryRead_memory hc rest, fun a ha hn i hi s => ?_⟩
  have h : ∀ a ∈ arrays, a.name = "urec_times_of_horizon_scan_lines" →
      a.get = .float8 ∧ a.off = 7579 ∧ a.step = 8 ∧ a.len = 2 ∧ a.read = 2 := by decide +kernel
  obtain ⟨h1, h2, h3, h4, h5⟩ := h a ha hn
  unfold Array.element Array.call
  rw [if_pos (by omega), if_pos ⟨rfl, by omega⟩, h1, h2, h3]
  have hl : locate all "Horlim" = some (7579, ⟨"Horlim", .i2, 12⟩) := by decide +kernel
  obtain ⟨_, _, e⟩ := locate_spec hl (kept c) []
  have e := fun k (hk : k < 12) => e k hk
  simp only [List.append_nil, Kind.width] at e
  have lm := memory_length c
  change ∀ k < 12, ((memory c).drop (7579 + k * 2)).take 2 = encBE 2 (pattern 16 (kept c "Horlim" k)) at e
  have b8 : ((memory c).drop (7579 + i * 8)).take 8 = encBE 2 (pattern 16 (kept c "Horlim" (4 * i))) ++
      (encBE 2 (pattern 16 (kept c "Horlim" (4 * i + 1))) ++ (encBE 2 (pattern 16 (kept c "Horlim" (4 * i + 2))) ++
        encBE 2 (pattern 16 (kept c "Horlim" (4 * i + 3))))) := by
    rw [← e (4 * i) (by omega), ← e (4 * i + 1) (by omega), ← e (4 * i + 2) (by omega), ← e (4 * i + 3) (by omega)]
    rw [show 8 = 2 + (2 + (2 + 2)) from rfl, List.take_add, List.take_add, List.take_add]
    simp only [List.drop_drop]
    rw [show 7579 + i * (2 + (2 + (2 + 2))) = 7579 + 4 * i * 2 by omega,
      show 7579 + 4 * i * 2 + 2 = 7579 + (4 * i + 1) * 2 by omega,
      show 7579 + (4 * i + 1) * 2 + 2 = 7579 + (4 * i + 2) * 2 by omega,
      show 7579 + (4 * i + 2) * 2 + 2 = 7579 + (4 * i + 3) * 2 by omega]
  have hv : beVal (((memory c).drop (7579 + i * 8)).take 8) = pattern 16 (kept c "Horlim" (4 * i)) * 2 ^ 48 +
      pattern 16 (kept c "Horlim" (4 * i + 1)) * 2 ^ 32 + pattern 16 (kept c "Horlim" (4 * i + 2)) * 2 ^ 16 +
      pattern 16 (kept c "Horlim" (4 * i + 3)) := by
    have p := fun k => beVal_encBE_of_lt (n := 2) (pattern_lt 16 (kept c "Horlim" k))
    rw [b8, beVal_append, beVal_append, beVal_append, p, p, p, p]
    simp only [List.length_append, encBE_length]
    omega
  rw [take_getD 8 (by omega)] at hv
  have g := getUI8_eq .little ((memory c).getD (7579 + i * 8) 0) ((memory c).getD (7579 + i * 8 + 1) 0)
    ((memory c).getD (7579 + i * 8 + 2) 0) ((memory c).getD (7579 + i * 8 + 3) 0) ((memory c).getD (7579 + i * 8 + 4) 0)
    ((memory c).getD (7579 + i * 8 + 5) 0) ((memory c).getD (7579 + i * 8 + 6) 0) ((memory c).getD (7579 + i * 8 + 7) 0)
  rw [chk_little] at g
  rw [← hv]
  show Outcome.ok (MtpHeader.float8 (memory c) (7579 + i * 8)) = _
  unfold MtpHeader.float8
  rw [g]
  rfl

/-- Violated: the texts of two headers cannot be used together.  The address given for the first header shows the text of
the second after the accessor has been called for it. -/
theorem C101_violated_shared (c d : Content) (hc : Fits c) (hd : Fits d) (rest : Bytes) :
    ∃ x y, Mtp.binaryRead (headerBytes c ++ rest) = .ok (x, rest) ∧ Mtp.binaryRead (headerBytes d ++ rest) = .ok (y, rest) ∧
      ∀ s, ∀ t ∈ texts, t.name = "field_name" → ∀ i < 8,
        t.element (t.call x s) i = .ok (c "Product Type" i) ∧
        t.element (t.call y (t.call x s)) i = .ok (d "Product Type" i) := by
  have key : ∀ c : Content, Fits c → ∀ t ∈ texts, t.name = "field_name" → ∀ i < 8, ∀ s,
      t.element (t.call (memory c) s) i = .ok (c "Product Type" i) := by
    intro c hc t ht hn i hi s
    have h : ∀ t ∈ texts, t.name = "field_name" → t.off = 0 ∧ t.n = 8 := by decide +kernel
    obtain ⟨h1, h2⟩ := h t ht hn
    have := agrees_value hc (g := .byte) (off := 0) (step := 1) (count := 8) (name := "Product Type") (by decide +kernel) i hi
    rw [if_neg (by decide), Nat.mul_one] at this
    have hk : kept c "Product Type" i = c "Product Type" i := by
      unfold kept
      rw [if_neg (fun e => absurd e.2 (by decide +kernel)), if_neg (fun e => absurd e.2 (by decide +kernel))]
    unfold Text.element Text.call
    rw [if_pos (by omega), if_pos ⟨rfl, by omega⟩, h1, this, hk]
  exact ⟨memory c, memory d, binaryRead_memory hc rest, binaryRead_memory hd rest,
    fun s t ht hn i hi => ⟨key c hc t ht hn i hi s, key d hd t ht hn i hi _⟩⟩

/-! ### A header -/

/-- A composite of 1998 that is not rectified. -/
def content101 : Content := fun name i =>
  if name = "Year" then 1998 else if name = "Chan" then 3 else if name = "Proc" then 0
  else if name = "Product Type" then 65 + i % 26 else if name = "Hist1" then 1 + i % 100 else 7

/-- The same with another product type, rectified. -/
def content101' : Content := fun name i =>
  if name = "Product Type" then 70 + i % 26 else if name = "Proc" then 5 else content101 name i

theorem small_fits (k : Kind) (v : Int) (h0 : 0 ≤ v) (h1 : v < 128) : k.Fits v := by
  cases k <;> (simp only [Kind.Fits]; omega)

theorem fits101 : Fits content101 := by
  intro m hm i _
  by_cases hy : m.name = "Year"
  · have h : ∀ m ∈ members content101, m.name = "Year" → m.kind = .i4 := by decide +kernel
    rw [h m hm hy, hy]
    show (-2 ^ 31 : Int) ≤ 1998 ∧ (1998 : Int) < 2 ^ 31
    decide
  · have : 0 ≤ content101 m.name i ∧ content101 m.name i < 128 := by
      unfold content101
      rw [if_neg hy]
      repeat' split
      all_goals omega
    exact small_fits _ _ this.1 this.2

theorem fits101' : Fits content101' := by
  intro m hm i _
  by_cases hy : m.name = "Year"
  · have h : ∀ m ∈ members content101', m.name = "Year" → m.kind = .i4 := by decide +kernel
    rw [h m hm hy, hy]
    show (-2 ^ 31 : Int) ≤ 1998 ∧ (1998 : Int) < 2 ^ 31
    decide
  · have : 0 ≤ content101' m.name i ∧ content101' m.name i < 128 := by
      unfold content101' content101
      rw [if_neg hy]
      repeat' split
      all_goals omega
    exact small_fits _ _ this.1 this.2

/-- The header of the composite gives its year, keeps its second section, and shows zero for a value of the histogram that
is not. -/
example : ∃ header, Mtp.binaryRead (headerBytes content101 ++ [1, 2]) = .ok (header, [1, 2]) ∧
    (∃ a ∈ values, a.name = "year" ∧ a.call header = 1998) ∧ kept content101 "Hist1" 30 = 31 ∧ kept content101 "Rgain2" 3029 = 7 := by
  obtain ⟨header, h1, h2⟩ := C101_numbers content101 fits101 [1, 2]
  refine ⟨header, h1, ?_, by decide +kernel, by decide +kernel⟩
  unfold values numberOf at h2
  cases h2 with
  | cons h _ => exact ⟨_, by decide +kernel, h.1, h.2⟩

/-- The texts of both headers differ, and the second section of the rectified product is not kept. -/
example : content101 "Product Type" 0 ≠ content101' "Product Type" 0 ∧ kept content101' "Hist1" 3 = 0 ∧
    content101' "Hist1" 3 = 4 ∧ Rectified content101' ∧ ¬ Rectified content101 := by
  unfold Rectified
  decide +kernel

end Msat.Props
