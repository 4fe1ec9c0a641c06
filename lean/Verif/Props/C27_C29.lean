import Verif.Lemmas.OmtpIds

/-
C27 OpenMTP-IDS files round-trip.
C28 Truncated OpenMTP-IDS files are rejected.
C29 OpenMTP-IDS scan line ranges.
-/
namespace Msat.Props
open Msat Ids IdsSpec

/-! ## C27 -/

/-- A consistent content is written without undefined behaviour, and what is written reads back as the
same content. -/
theorem C27_round_trip (x : OpenMTP_IDS) (h : Consistent x) :
    ∃ bytes, writeIds x = .ok bytes ∧ readFile bytes = .ok x := by
  refine ⟨writeFileHeader x.fileheader ++ x.record.flatMap writeRecord, ?_, ?_⟩
  · unfold writeIds
    have hn : ((x.fileheader.no_records - 1) % 2 ^ 32).toNat = x.record.length := by
      have h1 := h.1.2.2.2 x.fileheader.no_records (by simp)
      have h2 := h.2.1
      unfold U16 at h1
      omega
    dsimp only
    rw [hn, if_pos (Nat.le_refl _), List.take_of_length_le (Nat.le_refl _)]
  · unfold readFile
    have := parses_ids h []
    rw [List.append_nil] at this
    rw [this]
    rfl

/-- Two consistent contents that are written alike are the same. -/
theorem C27_injective (x y : OpenMTP_IDS) (hx : Consistent x) (hy : Consistent y) (e : writeIds x = writeIds y) : x = y := by
  obtain ⟨bx, h1, h2⟩ := C27_round_trip x hx
  obtain ⟨bY, h3, h4⟩ := C27_round_trip y hy
  rw [h1, h3] at e
  cases e
  rw [h2] at h4
  cases h4
  rfl

/-- Bytes after the last record do not change what is read. -/
theorem C27_trailing_bytes (x : OpenMTP_IDS) (h : Consistent x) (bytes rest : Bytes) (hw : writeIds x = .ok bytes) :
    readFile (bytes ++ rest) = .ok x := by
  obtain ⟨b, h1, h2⟩ := C27_round_trip x h
  rw [h1] at hw
  cases hw
  unfold readFile at h2 ⊢
  cases hr : readIds ⟨bytes, true⟩ with
  | ok r =>
    obtain ⟨y, s'⟩ := r
    rw [hr] at h2
    simp only [Outcome.ok_bind] at h2
    by_cases hg : s'.good = true
    · rw [if_pos hg] at h2
      cases h2
      have := (ext_ids _ rest _ _ hr hg).2
      simp only at this
      rw [this]
      rfl
    · rw [if_neg hg] at h2; cases h2
  | throws _ => rw [hr] at h2; cases h2
  | ub => rw [hr] at h2; cases h2
  | terminate => rw [hr] at h2; cases h2
  | diverges => rw [hr] at h2; cases h2

/-- The size of a file is the sum of the sizes in its headers. -/
theorem C27_line_size (l : ScanLine) (h : ScanLineOk l) : ((writeScanLine l).length : Int) = l.lineheader.length := by
  obtain ⟨_, _, h3⟩ := h
  unfold writeScanLine writeLineHeader write2
  simp only [List.length_append, List.length_replicate]
  rw [show ∀ v, (Machine.bsBigWrite2 v).length = 2 from fun _ => rfl]
  simp only [show ∀ v, (Machine.bsBigWrite2 v).length = 2 from fun _ => rfl]
  omega

/-! ## C28 -/

/-- Whatever the bytes, reading ends with a content or an exception. -/
theorem C28_any_file_handled (content : Bytes) : (readFile content).Handled := by
  unfold readFile
  have := safe_ids ⟨content, true⟩
  cases hm : readIds ⟨content, true⟩ with
  | ok r =>
    simp only [Outcome.ok_bind]
    split <;> trivial
  | throws _ => trivial
  | ub => rw [hm] at this; exact this
  | terminate => rw [hm] at this; exact this
  | diverges => rw [hm] at this; exact this

/-- A file cut anywhere is rejected with an exception. -/
theorem C28_truncated_rejected (x : OpenMTP_IDS) (h : Consistent x) (kept lost : Bytes) (hl : lost ≠ [])
    (hw : writeIds x = .ok (kept ++ lost)) : (readFile kept).Throws := by
  obtain ⟨b, h1, h2⟩ := C27_round_trip x h
  rw [h1] at hw
  have hb : b = kept ++ lost := by cases hw; rfl
  subst hb
  have hend : readIds ⟨kept ++ lost, true⟩ = .ok (x, ⟨[], true⟩) := by
    have hp := parses_ids h []
    have hn : ((x.fileheader.no_records - 1) % 2 ^ 32).toNat = x.record.length := by
      have h1 := h.1.2.2.2 x.fileheader.no_records (by simp)
      have h2 := h.2.1
      unfold U16 at h1
      omega
    unfold writeIds at h1
    dsimp only at h1
    rw [hn, if_pos (Nat.le_refl _), List.take_of_length_le (Nat.le_refl _)] at h1
    simp only [Outcome.ok.injEq] at h1
    rw [List.append_nil, h1] at hp
    exact hp
  have hs := C28_any_file_handled kept
  cases hr : readFile kept with
  | throws _ => trivial
  | ub => rw [hr] at hs; exact hs
  | terminate => rw [hr] at hs; exact hs
  | diverges => rw [hr] at hs; exact hs
  | ok y =>
    exfalso
    unfold readFile at hr
    cases hm : readIds ⟨kept, true⟩ with
    | ok r =>
      obtain ⟨z, s'⟩ := r
      rw [hm] at hr
      simp only [Outcome.ok_bind] at hr
      by_cases hg : s'.good = true
      · have := (ext_ids _ lost _ _ hm hg).2
        simp only at this
        rw [hend] at this
        have hc : s'.rest ++ lost = [] := by
          have := congrArg (fun o => match o with | Outcome.ok (r : OpenMTP_IDS × IStream) => r.2.rest | _ => []) this
          exact this.symm
        exact hl (List.append_eq_nil_iff.1 hc).2
      · rw [if_neg hg] at hr; cases hr
    | throws _ => rw [hm] at hr; cases hr
    | ub => rw [hm] at hr; cases hr
    | terminate => rw [hm] at hr; cases hr
    | diverges => rw [hm] at hr; cases hr

/-! ## C29 -/

/-- The lines from `a` to `b` are lines `a`, …, `b - 1` of all the records in order. -/
theorem C29_range (x : OpenMTP_IDS) (a b : Nat) :
    scanlineRange x a b = .ok (((allLines x).drop a).take (b - a)) := by
  unfold scanlineRange allLines
  by_cases h : b ≤ a
  · rw [if_pos h, show b - a = 0 by omega, List.take_zero]
  · rw [if_neg h, rangeLoop_eq _ _ _ (by omega), List.flatMap_def, List.drop_take]

/-- Line `i` alone. -/
theorem C29_single (x : OpenMTP_IDS) (i : Nat) (hx : (allLines x).length < 2 ^ 32) (hi : i < 2 ^ 32) :
    scanlineAt x i = .ok ((allLines x)[i]?.toList) := by
  unfold scanlineAt
  rw [C29_range]
  congr 1
  by_cases h : i = 2 ^ 32 - 1
  · rw [List.getElem?_eq_none (by omega), List.drop_of_length_le (by omega)]
    simp
  · rw [Nat.mod_eq_of_lt (by omega), show i + 1 - i = 1 by omega]
    by_cases hl : i < (allLines x).length
    · rw [List.getElem?_eq_getElem hl, List.drop_eq_getElem_cons hl]
      rfl
    · rw [List.getElem?_eq_none (by omega), List.drop_of_length_le (by omega)]
      rfl

theorem scanlineAll_last (rs : List Record) : ∀ n, n + (rs.flatMap (·.scanline)).length < 2 ^ 32 →
    rs.foldl (fun last r => (last + r.scanline.length) % 2 ^ 32) n = n + (rs.flatMap (·.scanline)).length := by
  induction rs with
  | nil => intro n _; rfl
  | cons r rs ih =>
    intro n h
    rw [List.flatMap_cons, List.length_append] at h ⊢
    rw [List.foldl_cons, Nat.mod_eq_of_lt (by omega), ih _ (by omega)]
    omega

/-- What the library returns for all the lines: every line but the last. -/
theorem C29_all_lines_partial (x : OpenMTP_IDS) (hx : (allLines x).length < 2 ^ 32) :
    scanlineAll x = .ok (allLines x).dropLast := by
  unfold scanlineAll
  have := scanlineAll_last x.record 0 (by unfold allLines at hx; omega)
  dsimp only
  rw [this, Nat.zero_add, C29_range, show (x.record.flatMap (·.scanline)).length = (allLines x).length from rfl]
  have hu : allLines x ≠ [] → u32sub (allLines x).length 1 = (allLines x).length - 1 := by
    intro h0
    have := List.length_pos_iff.2 h0
    unfold u32sub
    omega
  generalize u32sub (allLines x).length 1 = k at *
  rw [List.drop_zero, Nat.sub_zero, List.dropLast_eq_take]
  by_cases h0 : allLines x = []
  · rw [h0, List.take_nil, List.take_nil]
  · rw [hu h0]

/-- So the last line is always missing: asking for all the scan lines does not return every line. -/
theorem C29_violated_all_lines (x : OpenMTP_IDS) (hx : (allLines x).length < 2 ^ 32) (h0 : allLines x ≠ []) :
    scanlineAll x ≠ .ok (allLines x) := by
  rw [C29_all_lines_partial x hx]
  intro e
  have := congrArg (fun o => match o with | Outcome.ok (l : List ScanLine) => l.length | _ => 0) e
  simp only [List.length_dropLast] at this
  have := List.length_pos_iff.2 h0
  omega

/-! ### A small image -/

/-- Two lines of three pixels with one byte of padding in one record. -/
def smallIds : OpenMTP_IDS :=
  let l (i : Int) (px : Bytes) : ScanLine := ⟨⟨20, i, 1, 3, 4, 0, 0, 0⟩, px⟩
  { fileheader := ⟨[0, 1], 2, 1998, 12, 10, 30, 1998, 13, 0, 0, 1, 0, 0, 4, str "METEOSAT", 20, 60, 1, 1, 1, 0, 5,
      1, 1, 1, 0, 0⟩
    record := [⟨⟨[0, 1], 8, 2, 50, 0⟩, [l 1 [10, 20, 30], l 2 [40, 50, 255]]⟩] }

example : Consistent smallIds := by
  refine ⟨⟨rfl, rfl, by decide, ?_⟩, rfl, ?_⟩
  · unfold U16; decide
  · intro r hr
    cases List.mem_singleton.1 hr
    refine ⟨rfl, by unfold U16; decide, rfl, ?_⟩
    intro l hl
    rcases List.mem_cons.1 hl with rfl | hl
    · exact ⟨by unfold U16; decide, rfl, by decide⟩
    · cases List.mem_singleton.1 hl
      exact ⟨by unfold U16; decide, rfl, by decide⟩

example : scanlineAll smallIds = scanlineRange smallIds 0 1 := by decide +kernel

end Msat.Props
