import Mathlib.Tactic.Common
import Mathlib.Data.List.Induction
import Verif.Model.OmtpIdsTools
import Verif.Lemmas.OmtpIdsAccepted
import Verif.Spec.OmtpIdsTools
import Verif.Props.C27_C29

/-! C93: the tools for OpenMTP-IDS files. -/
namespace Msat.Props
open Ids IdsSpec IdsTools
open IdsToolsSpec (Writes GreyMap kind imageName final cutLine)

/-! ### Reading and copying -/

/-- Every file the library accepts has a content that agrees with its own headers. -/
theorem C93_accepted_consistent (content : Bytes) (x : OpenMTP_IDS) (h : readFile content = .ok x) : Consistent x :=
  readFile_consistent h

/-- Copying a file the library accepts succeeds and writes a file with the same content. -/
theorem C93_copy (content : Bytes) (w : World) (x : OpenMTP_IDS) (hi : w.input = some content)
    (hx : readFile content = .ok x) (hc : w.creatable "test.omtp-ids" = true) :
    ∃ copy, writeTool w = .ok ⟨0, [("test.omtp-ids", copy)]⟩ ∧ readFile copy = .ok x := by
  obtain ⟨bytes, h1, h2⟩ := C27_round_trip x (readFile_consistent hx)
  refine ⟨bytes, ?_, h2⟩
  unfold writeTool openIds writeTo
  rw [hi]
  dsimp only
  rw [hx, Outcome.ok_bind, h1, Outcome.ok_bind, if_pos hc]
  rfl

/-- A damaged or truncated file ends the copy and the conversion with a failure, and nothing is written, if it does
not announce zero records (the number is in the third and fourth bytes). -/
theorem C93_refused_partial (content : Bytes) (w : World) (hi : w.input = some content)
    (hx : (readFile content).Throws) (hn : ∀ a b rest, content ≠ a :: b :: 0 :: 0 :: rest) :
    writeTool w = .ok ⟨1, []⟩ ∧ pgmTool w = .ok ⟨1, []⟩ := by
  obtain ⟨msg, hm⟩ : ∃ msg, readFile content = .throws msg := by
    cases hr : readFile content with
    | throws m => exact ⟨m, rfl⟩
    | ok _ => rw [hr] at hx; exact hx.elim
    | ub => rw [hr] at hx; exact hx.elim
    | terminate => rw [hr] at hx; exact hx.elim
    | diverges => rw [hr] at hx; exact hx.elim
  have ht : thrown msg = .literal := by
    rcases readFile_throws hm with h | ⟨_, a, b, rest, h⟩
    · simp only [recordMessages, List.mem_cons, List.not_mem_nil, or_false] at h
      rcases h with h | h | h | h | h | h <;> rw [h] <;> decide
    · exact absurd h (hn a b rest)
  unfold writeTool pgmTool openIds
  rw [hi]
  dsimp only
  rw [hm]
  simp only [Outcome.throws_bind]
  unfold catchText
  dsimp only
  rw [ht]
  exact ⟨rfl, rfl⟩

/-- A file cut anywhere after the copy of a consistent image is refused in that way. -/
theorem C93_truncated (x : OpenMTP_IDS) (h : Consistent x) (kept lost : Bytes) (hl : lost ≠ [])
    (hw : writeIds x = .ok (kept ++ lost)) (w : World) (hi : w.input = some kept) :
    writeTool w = .ok ⟨1, []⟩ ∧ pgmTool w = .ok ⟨1, []⟩ := by
  refine C93_refused_partial kept w hi (C28_truncated_rejected x h kept lost hl hw) ?_
  intro a b rest e
  obtain ⟨bytes, h1, h2⟩ := C27_round_trip x h
  rw [h1] at hw
  have hb : bytes = kept ++ lost := by cases hw; rfl
  subst hb
  unfold readFile at h2
  rw [readIds_steps] at h2
  cases hm : readFileHeader ⟨kept ++ lost, true⟩ with
  | ok r =>
    rw [hm] at h2
    simp only [Outcome.ok_bind] at h2
    by_cases hg : r.2.good = true
    · rw [if_pos hg] at h2
      obtain ⟨a', b', c, d, rest', e1, e2⟩ := header_records (h := r.1) (s := r.2) hm hg
      rw [e] at e1
      simp only [List.cons_append, List.cons.injEq] at e1
      obtain ⟨_, _, hc, hd, _⟩ := e1
      rw [← hc, ← hd] at e2
      rw [if_pos (by rw [e2]; rfl)] at h2
      cases h2
    · rw [if_neg hg] at h2
      cases h2
  | throws k => rw [hm] at h2; cases h2
  | ub => rw [hm] at h2; cases h2
  | terminate => rw [hm] at h2; cases h2
  | diverges => rw [hm] at h2; cases h2

/-- A file with a sound header that announces zero records asks for 2^32-1 of them: the exception is not caught and
every tool is terminated. -/
theorem C93_violated_no_records (w : World) (h : FileHeader) (hok : FileHeaderOk h) (h0 : h.no_records = 0) (rest : Bytes)
    (hi : w.input = some (writeFileHeader h ++ rest)) :
    writeTool w = .terminate ∧ pgmTool w = .terminate ∧ sectorTool w = .terminate := by
  have : readFile (writeFileHeader h ++ rest) = .throws "bad_alloc" := by
    unfold readFile
    rw [readIds_steps, parses_fileHeader hok rest]
    simp only [Outcome.ok_bind]
    rw [if_pos trivial, if_pos h0]
    rfl
  unfold writeTool pgmTool sectorTool openIds
  rw [hi]
  dsimp only
  rw [this]
  exact ⟨rfl, rfl, rfl⟩

/-- When the file named on the command line cannot be opened, the message printed by the copy and the conversion is
read from a string that has been destroyed: the behaviour is undefined. -/
theorem C93_violated_cannot_open (w : World) (h : w.input = none) : writeTool w = .ub ∧ pgmTool w = .ub := by
  unfold writeTool pgmTool openIds
  rw [h]
  exact ⟨rfl, rfl⟩

/-- The sector extraction catches only exceptions of type `char*`: when the file cannot be opened, is truncated or
is damaged the program is terminated instead of reporting the error. -/
theorem C93_violated_sector_refused (w : World)
    (h : w.input = none ∨ ∃ content, w.input = some content ∧ (readFile content).Throws) :
    sectorTool w = .terminate := by
  unfold sectorTool openIds
  rcases h with h | ⟨content, h, ht⟩
  · rw [h]
    rfl
  · rw [h]
    dsimp only
    cases hr : readFile content with
    | throws m => rfl
    | ok _ => rw [hr] at ht; exact ht.elim
    | ub => rw [hr] at ht; exact ht.elim
    | terminate => rw [hr] at ht; exact ht.elim
    | diverges => rw [hr] at ht; exact ht.elim

/-! ### Images -/

theorem writes_decimal (n : Nat) : Writes (Text.decimal n) n := by
  have single : ∀ d, d < 10 → Writes [UInt8.ofNat (48 + d)] d := by
    intro d hd
    have ht : (UInt8.ofNat (48 + d)).toNat = 48 + d := by
      rw [UInt8.toNat_ofNat']
      omega
    refine ⟨by simp, ?_, ?_⟩
    · intro c hc
      cases List.mem_singleton.1 hc
      rw [UInt8.le_iff_toNat_le, UInt8.le_iff_toNat_le, ht]
      exact ⟨Nat.le_add_right _ _, by show 48 + d ≤ 57; omega⟩
    · have hne : UInt8.ofNat (48 + d) ≠ 32 := by
        intro e
        rw [e] at ht
        have : (32 : UInt8).toNat = 32 := rfl
        omega
      show 10 * 0 + TextSpec.digitValue (UInt8.ofNat (48 + d)) = d
      unfold TextSpec.digitValue
      rw [if_neg hne, ht]
      omega
  induction n using Nat.strong_induction_on with
  | _ n ih =>
    rw [Text.decimal]
    by_cases h : n < 10
    · rw [if_pos h]
      exact single n h
    · rw [if_neg h]
      obtain ⟨h1, h2, h3⟩ := ih (n / 10) (by omega)
      obtain ⟨s1, s2, s3⟩ := single (n % 10) (by omega)
      refine ⟨by simp, ?_, ?_⟩
      · intro c hc
        rcases List.mem_append.1 hc with hc | hc
        · exact h2 c hc
        · exact s2 c hc
      · unfold TextSpec.value at h3 s3 ⊢
        rw [List.foldl_append, h3]
        simp only [List.foldl_cons, List.foldl_nil] at s3 ⊢
        omega

theorem pgmName_kind {id : Int} {k : IdsToolsSpec.Kind} (h : kind id = some k) : pgmName id = imageName k := by
  unfold kind at h
  split at h <;> first | (cases h; rfl) | cases h

theorem kind_pgmName {id : Int} {k : IdsToolsSpec.Kind} (h : pgmName id = imageName k) : kind id = some k := by
  unfold pgmName at h
  split at h
  · rename_i hm
    simp only [List.mem_cons, List.not_mem_nil, or_false] at hm
    cases k <;> simp [imageName] at h
    rcases hm with e | e | e | e | e | e | e | e <;> subst e <;> rfl
  · split at h
    · rename_i hm
      simp only [List.mem_cons, List.not_mem_nil, or_false] at hm
      cases k <;> simp [imageName] at h
      rcases hm with e | e <;> subst e <;> rfl
    · split at h
      · rename_i hm
        simp only [List.mem_cons, List.not_mem_nil, or_false] at hm
        cases k <;> simp [imageName] at h
        rcases hm with e | e <;> subst e <;> rfl
      · cases k <;> simp [imageName] at h

theorem channelRows_ok {id : Int} {r : Record} (h : RecordOk r) :
    IdsTools.channelRows id (r.recordheader.no_scanlines % 2 ^ 32).toNat r.scanline =
      .ok ((r.scanline.filter (fun s => s.lineheader.channel_id = id)).map (·.linepixel)) := by
  obtain ⟨_, h2, h3, _⟩ := h
  have := h2 r.recordheader.no_scanlines (by simp)
  unfold U16 at this
  have hn : (r.recordheader.no_scanlines % 2 ^ 32).toNat = r.scanline.length := by omega
  unfold IdsTools.channelRows
  rw [hn, if_pos (Nat.le_refl _), List.take_length]

theorem channelImage_ok {id : Int} {rs : List Record} (h : ∀ r ∈ rs, RecordOk r) :
    channelImage id rs = .ok (((rs.flatMap (·.scanline)).filter (fun s => s.lineheader.channel_id = id)).map (·.linepixel)) := by
  induction rs with
  | nil => rfl
  | cons r rs ih =>
    unfold channelImage
    rw [channelRows_ok (h r List.mem_cons_self), Outcome.ok_bind, ih (fun q hq => h q (List.mem_cons_of_mem _ hq)),
      Outcome.ok_bind, List.flatMap_cons, List.filter_append, List.map_append]
    rfl

theorem writeChannel_ok (w : World) (id : Int) {x : OpenMTP_IDS} (h : Consistent x) :
    writeChannel w id x = .ok (if id = 0 then (false, []) else writePgm w (pgmName id) (IdsToolsSpec.channelRows x id)) := by
  unfold writeChannel
  by_cases h0 : id = 0
  · rw [if_pos h0, if_pos h0]
  · rw [if_neg h0, if_neg h0]
    have h1 := h.1.2.2.2 x.fileheader.no_records (by simp)
    have h2 := h.2.1
    unfold U16 at h1
    have hn : ((x.fileheader.no_records - 1) % 2 ^ 32).toNat = x.record.length := by omega
    dsimp only
    rw [hn, if_pos (Nat.le_refl _), List.take_length, channelImage_ok h.2.2]
    rfl

theorem pgmRows_uniform {size : Nat} {rows : List Bytes} (h : ∀ r ∈ rows, r.length = size) :
    pgmRows size rows = (rows.flatten, true) := by
  induction rows with
  | nil => rfl
  | cons r rs ih =>
    unfold pgmRows
    rw [if_neg (by simp [h r List.mem_cons_self]), ih (fun q hq => h q (List.mem_cons_of_mem _ hq))]
    rfl

/-- All the lines of a channel have the same number of pixels, and there is at least one of each. -/
def Rectangular (columns : Nat) (rows : List Bytes) : Prop := 0 < columns ∧ rows ≠ [] ∧ ∀ r ∈ rows, r.length = columns

theorem writePgm_rect (w : World) (name : String) {columns : Nat} {rows : List Bytes} (h : Rectangular columns rows)
    (hc : w.creatable name = true) : ∃ file, writePgm w name rows = (true, [(name, file)]) ∧ GreyMap columns rows file := by
  obtain ⟨h1, h2, h3⟩ := h
  cases rows with
  | nil => exact absurd rfl h2
  | cons r rs =>
    have hr := h3 r List.mem_cons_self
    refine ⟨_, ?_, Text.decimal columns, Text.decimal (rs.length + 1), writes_decimal _, writes_decimal _, rfl⟩
    unfold writePgm
    dsimp only
    rw [hr, if_neg (by omega), hc, pgmRows_uniform h3]
    rfl

theorem pgmTool_ok (w : World) (content : Bytes) (x : OpenMTP_IDS) (hi : w.input = some content)
    (hx : readFile content = .ok x) :
    pgmTool w = .ok (finish (!(if x.fileheader.wv_id = 0 then (false, []) else
        writePgm w (pgmName x.fileheader.wv_id) (IdsToolsSpec.channelRows x x.fileheader.wv_id)).1,
      [x.fileheader.vis_id, x.fileheader.ir_id, x.fileheader.wv_id].flatMap (fun id => (if id = 0 then (false, []) else
        writePgm w (pgmName id) (IdsToolsSpec.channelRows x id)).2))) := by
  have hc := readFile_consistent hx
  unfold pgmTool openIds toPgm
  rw [hi]
  dsimp only
  rw [hx, Outcome.ok_bind, writeChannel_ok w _ hc, writeChannel_ok w _ hc, writeChannel_ok w _ hc]
  simp only [Outcome.ok_bind, List.flatMap_cons, List.flatMap_nil, List.append_nil, List.append_assoc]
  rfl

theorem writePgm_names (w : World) (name : String) (rows : List Bytes) :
    ∀ f ∈ (writePgm w name rows).2, f.1 = name := by
  unfold writePgm
  intro f hf
  split at hf
  · cases hf
  · split at hf
    · cases hf
    · split at hf
      · cases hf
      · cases List.mem_singleton.1 hf
        rfl

theorem final_append_other (a b : List (String × Bytes)) (name : String) (h : ∀ f ∈ b, f.1 ≠ name) :
    final (a ++ b) name = final a name := by
  unfold final
  rw [List.reverse_append, List.find?_append, List.find?_eq_none.2, Option.none_or]
  intro f hf
  simpa using h f (List.mem_reverse.1 hf)

theorem final_append_last (a : List (String × Bytes)) (name : String) (file : Bytes) :
    final (a ++ [(name, file)]) name = some file := by
  unfold final
  simp

/-- The image of each channel named in the header, with lines of one length, is in the file of its kind, if no other
of the three channels is of that kind. -/
theorem C93_images_partial (w : World) (content : Bytes) (x : OpenMTP_IDS) (hi : w.input = some content)
    (hx : readFile content = .ok x) (id : Int) (hid : id ∈ [x.fileheader.vis_id, x.fileheader.ir_id, x.fileheader.wv_id])
    (k : IdsToolsSpec.Kind) (hk : kind id = some k) (columns : Nat)
    (hr : Rectangular columns (IdsToolsSpec.channelRows x id)) (hc : w.creatable (imageName k) = true)
    (ho : ∀ other ∈ [x.fileheader.vis_id, x.fileheader.ir_id, x.fileheader.wv_id], other ≠ id →
      kind other ≠ some k) :
    ∃ run file, pgmTool w = .ok run ∧ final run.files (imageName k) = some file ∧
      GreyMap columns (IdsToolsSpec.channelRows x id) file := by
  obtain ⟨file, hf, hg⟩ := writePgm_rect w (imageName k) hr hc
  refine ⟨_, file, pgmTool_ok w content x hi hx, ?_, hg⟩
  have h0 : id ≠ 0 := by
    intro e
    rw [e] at hk
    cases hk
  unfold finish
  dsimp only
  generalize [x.fileheader.vis_id, x.fileheader.ir_id, x.fileheader.wv_id] = ids at hid ho ⊢
  clear hx hi
  induction ids using List.reverseRecOn with
  | nil => cases hid
  | append_singleton ids i ih =>
    rw [List.flatMap_append, List.flatMap_cons, List.flatMap_nil, List.append_nil]
    by_cases hii : i = id
    · rw [hii, if_neg h0, pgmName_kind hk, hf]
      exact final_append_last _ _ _
    · rw [final_append_other]
      · refine ih ?_ (fun o hm => ho o (by simp [hm]))
        rcases List.mem_append.1 hid with h | h
        · exact h
        · exact absurd (List.mem_singleton.1 h).symm hii
      · intro f hm
        by_cases hz : i = 0
        · rw [if_pos hz] at hm
          cases hm
        · rw [if_neg hz] at hm
          rw [writePgm_names _ _ _ f hm]
          exact fun e => ho i (by simp) hii (kind_pgmName e)

/-- The conversion of an accepted file always ends, and never does anything undefined. -/
theorem C93_conversion_ends (w : World) (content : Bytes) (x : OpenMTP_IDS) (hi : w.input = some content)
    (hx : readFile content = .ok x) : ∃ run, pgmTool w = .ok run := ⟨_, pgmTool_ok w content x hi hx⟩

/-- The program is documented to succeed if any of the three images is written: when the image of the water vapour
channel is written it always fails. -/
theorem C93_violated_success_reported_as_failure (w : World) (content : Bytes) (x : OpenMTP_IDS) (hi : w.input = some content)
    (hx : readFile content = .ok x) (k : IdsToolsSpec.Kind) (hk : kind x.fileheader.wv_id = some k) (columns : Nat)
    (hr : Rectangular columns (IdsToolsSpec.channelRows x x.fileheader.wv_id)) (hc : w.creatable (imageName k) = true) :
    ∃ run, pgmTool w = .ok run ∧ run.status = 1 ∧ run.files ≠ [] := by
  obtain ⟨file, hf, _⟩ := writePgm_rect w (imageName k) hr hc
  have h0 : x.fileheader.wv_id ≠ 0 := by
    intro e
    rw [e] at hk
    cases hk
  refine ⟨_, pgmTool_ok w content x hi hx, ?_, ?_⟩
  · unfold finish
    rw [if_neg h0, pgmName_kind hk, hf]
    rfl
  · unfold finish
    dsimp only
    simp only [List.flatMap_cons, List.flatMap_nil, List.append_nil]
    rw [if_neg h0, pgmName_kind hk, hf]
    simp

/-- When there is no line of any of the three channels, nothing is written and the program reports success. -/
theorem C93_violated_failure_reported_as_success (w : World) (content : Bytes) (x : OpenMTP_IDS) (hi : w.input = some content)
    (hx : readFile content = .ok x)
    (hn : ∀ id ∈ [x.fileheader.vis_id, x.fileheader.ir_id, x.fileheader.wv_id], IdsToolsSpec.channelRows x id = []) :
    pgmTool w = .ok ⟨0, []⟩ := by
  rw [pgmTool_ok w content x hi hx]
  have hp : ∀ id ∈ [x.fileheader.vis_id, x.fileheader.ir_id, x.fileheader.wv_id],
      (if id = 0 then (false, []) else writePgm w (pgmName id) (IdsToolsSpec.channelRows x id)) = (false, []) := by
    intro id hid
    rw [hn id hid]
    split <;> rfl
  rw [hp x.fileheader.wv_id (by simp)]
  simp only [List.flatMap_cons, List.flatMap_nil]
  rw [hp x.fileheader.wv_id (by simp), hp x.fileheader.vis_id (by simp), hp x.fileheader.ir_id (by simp)]
  rfl

theorem pgmRows_short {size : Nat} {rows : List Bytes} (hs : 0 < size) (h : ∃ r ∈ rows, r.length ≠ size) :
    (pgmRows size rows).1.length < size * rows.length := by
  induction rows with
  | nil => obtain ⟨_, h, _⟩ := h; cases h
  | cons r rs ih =>
    unfold pgmRows
    by_cases hr : r.length ≠ size
    · rw [if_pos hr, List.length_cons, Nat.mul_succ]
      exact Nat.lt_of_lt_of_le hs (Nat.le_add_left _ _)
    · rw [if_neg hr]
      dsimp only
      have := ih (by
        obtain ⟨q, hq, hne⟩ := h
        rcases List.mem_cons.1 hq with rfl | hq
        · exact absurd hne hr
        · exact ⟨q, hq, hne⟩)
      rw [List.length_append, List.length_cons, Nat.mul_succ]
      omega

theorem pgmRows_fails {size : Nat} {rows : List Bytes} (h : ∃ q ∈ rows, q.length ≠ size) : (pgmRows size rows).2 = false := by
  induction rows with
  | nil => obtain ⟨_, h, _⟩ := h; cases h
  | cons a as ih =>
    obtain ⟨q, hq, hne⟩ := h
    unfold pgmRows
    by_cases ha : a.length ≠ size
    · rw [if_pos ha]
    · rw [if_neg ha]
      rcases List.mem_cons.1 hq with rfl | hq
      · exact absurd hne ha
      · exact ih ⟨q, hq, hne⟩

/-- When the lines of a channel have different lengths, an image is left that announces more pixels than it has. -/
theorem C93_violated_different_lengths (w : World) (content : Bytes) (x : OpenMTP_IDS) (hi : w.input = some content)
    (hx : readFile content = .ok x) (id : Int) (hid : id ∈ [x.fileheader.vis_id, x.fileheader.ir_id, x.fileheader.wv_id])
    (k : IdsToolsSpec.Kind) (hk : kind id = some k) (hc : w.creatable (imageName k) = true) (r : Bytes) (rs : List Bytes)
    (hrows : IdsToolsSpec.channelRows x id = r :: rs) (hr : r ≠ []) (hd : ∃ q ∈ rs, q.length ≠ r.length) :
    ∃ run width height pixels, pgmTool w = .ok run ∧ Writes width r.length ∧ Writes height (r :: rs).length ∧
      (imageName k, str "P5\n" ++ width ++ str " " ++ height ++ str "\n255\n" ++ pixels) ∈ run.files ∧
      pixels.length < r.length * (r :: rs).length := by
  have hpos : 0 < r.length := List.length_pos_iff.2 hr
  have hd' : ∃ q ∈ r :: rs, q.length ≠ r.length := by
    obtain ⟨q, hq, hne⟩ := hd
    exact ⟨q, List.mem_cons_of_mem _ hq, hne⟩
  have h0 : id ≠ 0 := by
    intro e
    rw [e] at hk
    cases hk
  refine ⟨_, Text.decimal r.length, Text.decimal (rs.length + 1), (pgmRows r.length (r :: rs)).1,
    pgmTool_ok w content x hi hx, writes_decimal _, writes_decimal _, ?_, pgmRows_short hpos hd'⟩
  unfold finish
  refine List.mem_flatMap.2 ⟨id, hid, ?_⟩
  rw [if_neg h0, pgmName_kind hk, hrows]
  unfold writePgm
  dsimp only
  rw [if_neg (by omega), hc]
  simp

/-! ### Sectors -/

theorem recordLines_sector {n : Nat} (h1 : 9 ≤ n) (h2 : n ≤ 510) :
    ∃ k, recordLines n 256 = .ok k ∧ 1 ≤ k ∧ k ≤ 4 := by
  have e : 32 * n / 256 = n / 8 := by omega
  have a1 := Nat.sqrt_le (n / 8)
  have a2 := Nat.lt_succ_sqrt (n / 8)
  unfold recordLines
  rw [if_neg (by omega), e]
  generalize Nat.sqrt (n / 8) = t at a1 a2 ⊢
  have t1 : 1 ≤ t := by
    by_contra hc
    have : t = 0 := by omega
    subst this
    omega
  have t2 : t ≤ 7 := by
    by_contra hc
    have : 8 * 8 ≤ t * t := Nat.mul_le_mul (by omega) (by omega)
    omega
  dsimp only
  by_cases hp : t % 2 = 0
  · rw [if_pos hp]
    exact ⟨_, rfl, by omega, by omega⟩
  · rw [if_neg hp]
    by_cases hq : t * t * 256 = 32 * n ∧ t / 2 % 2 = 0
    · rw [if_pos hq]
      refine ⟨_, rfl, ?_, by omega⟩
      by_contra hc
      have : t = 1 := by omega
      subst this
      omega
    · rw [if_neg hq]
      exact ⟨_, rfl, by omega, by omega⟩

theorem fillRecords_lines (header : RecordHeader) (dummy : ScanLine) (k : Nat) : ∀ n (ls : List ScanLine), ls.length ≤ n * k →
    (fillRecords header dummy k n ls).flatMap (·.scanline) = ls ++ List.replicate (n * k - ls.length) dummy := by
  intro n
  induction n with
  | zero =>
    intro ls h
    have : ls = [] := List.eq_nil_of_length_eq_zero (by omega)
    subst this
    simp [fillRecords]
  | succ n ih =>
    intro ls h
    rw [Nat.succ_mul] at h ⊢
    unfold fillRecords
    rw [List.flatMap_cons, ih _ (by rw [List.length_drop]; omega)]
    dsimp only
    rw [List.length_drop]
    by_cases hl : k ≤ ls.length
    · rw [show k - ls.length = 0 by omega, List.replicate_zero, List.append_nil, ← List.append_assoc, List.take_append_drop]
      congr 2
      omega
    · rw [List.take_of_length_le (by omega), List.drop_of_length_le (by omega), List.nil_append, List.append_assoc,
        List.replicate_append_replicate]
      congr 2
      omega

theorem fillRecords_each (header : RecordHeader) (dummy : ScanLine) (k : Nat) : ∀ n (ls : List ScanLine),
    (fillRecords header dummy k n ls).length = n ∧
    ∀ r ∈ fillRecords header dummy k n ls, r.recordheader = header ∧ r.scanline.length = k ∧
      ∀ l ∈ r.scanline, l ∈ ls ∨ l = dummy := by
  intro n
  induction n with
  | zero => intro ls; exact ⟨rfl, fun r hr => by cases hr⟩
  | succ n ih =>
    intro ls
    unfold fillRecords
    refine ⟨by rw [List.length_cons, (ih _).1], ?_⟩
    intro r hr
    rcases List.mem_cons.1 hr with rfl | hr
    · refine ⟨rfl, ?_, ?_⟩
      · dsimp only
        rw [List.length_append, List.length_take, List.length_replicate]
        omega
      · intro l hl
        rcases List.mem_append.1 hl with hl | hl
        · exact .inl (List.mem_of_mem_take hl)
        · exact .inr (List.eq_of_mem_replicate hl)
    · obtain ⟨h1, h2, h3⟩ := (ih (ls.drop k)).2 r hr
      refine ⟨h1, h2, fun l hl => ?_⟩
      rcases h3 l hl with h | h
      · exact .inl (List.mem_of_mem_drop h)
      · exact .inr h

theorem sectorLine_ok {l : ScanLine} (h : 802 ≤ l.linepixel.length) : sectorLine l = .ok (cutLine l) := by
  unfold sectorLine
  have h' : pixel1 ≤ l.linepixel.length := h
  rw [if_pos h']
  have e : (l.linepixel.take pixel1).drop pixel0 = (l.linepixel.drop 546).take 256 := by
    show (l.linepixel.take 802).drop 546 = _
    rw [List.drop_take]
  have hl : ((l.linepixel.drop 546).take 256).length = 256 := by
    rw [List.length_take, List.length_drop]
    omega
  dsimp only
  rw [e, hl]
  rfl

theorem sectorLines_ok {ls : List ScanLine} (h : ∀ l ∈ ls, 802 ≤ l.linepixel.length) :
    IdsTools.sectorLines ls = .ok (ls.map cutLine) := by
  induction ls with
  | nil => rfl
  | cons l ls ih =>
    unfold IdsTools.sectorLines
    rw [sectorLine_ok (h l List.mem_cons_self), Outcome.ok_bind, ih (fun q hq => h q (List.mem_cons_of_mem _ hq))]
    rfl

theorem u272 : U16 272 := by unfold U16; decide
theorem u546 : U16 546 := by unfold U16; decide
theorem u256 : U16 256 := by unfold U16; decide
theorem u8 : U16 8 := by unfold U16; decide
theorem u0 : U16 0 := by unfold U16; decide

theorem cutLine_ok {l : ScanLine} (h : ScanLineOk l) (hl : 802 ≤ l.linepixel.length) : ScanLineOk (cutLine l) := by
  obtain ⟨h1, _, _⟩ := h
  have hp : ((l.linepixel.drop 546).take 256).length = 256 := by
    rw [List.length_take, List.length_drop]
    omega
  refine ⟨?_, ?_, ?_⟩
  · simp only [List.mem_cons, List.not_mem_nil, or_false, forall_eq_or_imp, forall_eq] at h1
    obtain ⟨_, a2, _, _, a5, a6, a7, a8⟩ := h1
    simp only [List.mem_cons, List.not_mem_nil, or_false, forall_eq_or_imp, forall_eq]
    exact ⟨u272, a2, u546, u256, a5, a6, a7, a8⟩
  · show (256 : Int) = (((l.linepixel.drop 546).take 256).length : Int)
    rw [hp]
    rfl
  · show (((l.linepixel.drop 546).take 256).length : Int) + 16 ≤ 272
    rw [hp]
    decide

theorem sector_range (x : OpenMTP_IDS) : scanlineRange x line0 line1 = .ok (IdsToolsSpec.sectorLines x) := by
  rw [C29_range]
  rfl

/-- The sector of an accepted image with enough lines of enough pixels is written to a file that is read back as: the
header of the image, but for the number and the length of the records; the lines of the sector, in order, each with its
own header, cut to 256 pixels; and, in the last record, lines without channel and with all pixels zero. -/
theorem C93_sector_partial (w : World) (content : Bytes) (x : OpenMTP_IDS) (hi : w.input = some content)
    (hx : readFile content = .ok x) (hlines : 2664 ≤ (allLines x).length)
    (hpixels : ∀ l ∈ IdsToolsSpec.sectorLines x, 802 ≤ l.linepixel.length)
    (hc : w.creatable "omtp-ids-sector.ids" = true) :
    ∃ file y, ∃ k : Nat, ∃ padding, sectorTool w = .ok ⟨0, [("omtp-ids-sector.ids", file)]⟩ ∧ readFile file = .ok y ∧
      y.fileheader = { x.fileheader with no_records := y.record.length + 1, record_length := k * 272 + 8 } ∧
      (∀ r ∈ y.record, r.scanline.length = k ∧ r.recordheader.record_length = k * 272 + 8) ∧
      allLines y = (IdsToolsSpec.sectorLines x).map cutLine ++ padding ∧ padding.length < k ∧
      ∀ l ∈ padding, l.lineheader.channel_id = 0 ∧ l.linepixel = List.replicate 256 0 := by
  have hcons := readFile_consistent hx
  generalize hS : IdsToolsSpec.sectorLines x = S at hpixels ⊢
  have hn1 : 9 ≤ S.length := by
    rw [← hS]
    unfold IdsToolsSpec.sectorLines
    rw [List.length_take, List.length_drop]
    omega
  have hn2 : S.length ≤ 510 := by
    rw [← hS]
    unfold IdsToolsSpec.sectorLines
    rw [List.length_take]
    omega
  obtain ⟨k, hk, hk1, hk4⟩ := recordLines_sector hn1 hn2
  have hmem : ∀ l ∈ S, ScanLineOk l := by
    intro l hl
    rw [← hS] at hl
    have : l ∈ allLines x := List.mem_of_mem_drop (List.mem_of_mem_take hl)
    obtain ⟨r, hr, hl'⟩ := List.mem_flatMap.1 this
    exact (hcons.2.2 r hr).2.2.2 l hl'
  have hlen : ∀ l ∈ S, (cutLine l).linepixel.length = 256 := by
    intro l hl
    have := hpixels l hl
    show ((l.linepixel.drop 546).take 256).length = 256
    rw [List.length_take, List.length_drop]
    omega
  let n := (S.length + k - 1) / k
  have hnk : S.length ≤ n * k := by
    have := Nat.div_add_mod (S.length + k - 1) k
    have := Nat.mod_lt (S.length + k - 1) hk1
    have e : n * k = k * ((S.length + k - 1) / k) := Nat.mul_comm _ _
    omega
  have hnk2 : n * k < S.length + k := by
    have := Nat.div_mul_le_self (S.length + k - 1) k
    show (S.length + k - 1) / k * k < _
    omega
  have hn0 : n ≠ 0 := by
    intro e
    rw [e] at hnk
    omega
  have hn510 : n ≤ 600 := by
    have : n * 1 ≤ n * k := Nat.mul_le_mul_left _ hk1
    omega
  let rs := fillRecords (sectorRecordHeader k 256) (dummyLine 256) k n (S.map cutLine)
  obtain ⟨hrl, hre⟩ := fillRecords_each (sectorRecordHeader k 256) (dummyLine 256) k n (S.map cutLine)
  have hall : rs.flatMap (·.scanline) = S.map cutLine ++ List.replicate (n * k - S.length) (dummyLine 256) := by
    have := fillRecords_lines (sectorRecordHeader k 256) (dummyLine 256) k n (S.map cutLine) (by rwa [List.length_map])
    rwa [List.length_map] at this
  have hsec : sector x = .ok rs := by
    unfold sector
    rw [sector_range, hS, Outcome.ok_bind, sectorLines_ok hpixels, Outcome.ok_bind]
    unfold repack
    cases hcut : S.map cutLine with
    | nil =>
      have := congrArg List.length hcut
      rw [List.length_map] at this
      have h0 : S.length = 0 := this
      omega
    | cons l0 rest =>
      have h256 : l0.linepixel.length = 256 := by
        have : l0 ∈ S.map cutLine := by rw [hcut]; exact List.mem_cons_self
        obtain ⟨q, hq, rfl⟩ := List.mem_map.1 this
        exact hlen q hq
      dsimp only
      rw [h256, ← hcut, List.length_map, hk, Outcome.ok_bind]
      unfold recordsFor
      rw [if_neg (by omega), Outcome.ok_bind]
      rfl
  let y : OpenMTP_IDS := ⟨{ x.fileheader with no_records := rs.length + 1, record_length := k * 272 + 8 }, rs⟩
  have hcontent : sectorContent x = .ok y := by
    unfold sectorContent
    rw [hsec, Outcome.ok_bind]
    cases hrs : rs with
    | nil =>
      have := congrArg List.length hrs
      rw [hrl] at this
      exact absurd this hn0
    | cons r0 rest =>
      have h0 : r0 ∈ rs := by rw [hrs]; exact List.mem_cons_self
      have hh := (hre r0 h0).1
      show Outcome.ok _ = Outcome.ok y
      congr 1
      show (⟨{ x.fileheader with no_records := (r0 :: rest).length + 1, record_length := r0.recordheader.record_length }, r0 :: rest⟩ : OpenMTP_IDS) = y
      rw [hh, ← hrs]
      rfl
  have hy : Consistent y := by
    refine ⟨?_, rfl, ?_⟩
    · obtain ⟨b1, b2, b3, b4⟩ := hcons.1
      refine ⟨b1, b2, by show (58 : Int) ≤ k * 272 + 8; omega, ?_⟩
      simp only [List.mem_cons, List.not_mem_nil, or_false, forall_eq_or_imp, forall_eq] at b4 ⊢
      obtain ⟨a1, a2, a3, a4, a5, a6, a7, a8, a9, a10, a11, a12, a13, a14, a15, a16⟩ := b4
      refine ⟨?_, a2, a3, a4, a5, a6, a7, a8, a9, a10, a11, a12, a13, a14, ?_, a16⟩
      · show U16 ((rs.length : Int) + 1)
        rw [hrl]
        unfold U16
        omega
      · show U16 ((k : Int) * 272 + 8)
        unfold U16
        omega
    · intro r hr
      obtain ⟨c1, c2, c3⟩ := hre r hr
      refine ⟨by rw [c1]; rfl, ?_, by rw [c1, c2]; rfl, ?_⟩
      · rw [c1]
        simp only [List.mem_cons, List.not_mem_nil, or_false, forall_eq_or_imp, forall_eq]
        refine ⟨u8, ?_, ?_, u0⟩
        · show U16 (k : Int)
          unfold U16
          omega
        · show U16 ((k : Int) * (256 + 16) + 8)
          unfold U16
          omega
      · intro l hl
        rcases c3 l hl with h | h
        · obtain ⟨q, hq, rfl⟩ := List.mem_map.1 h
          exact cutLine_ok (hmem q hq) (hpixels q hq)
        · rw [h]
          refine ⟨?_, ?_, ?_⟩
          · unfold U16; decide
          · show (256 : Int) = ((List.replicate 256 (0 : UInt8)).length : Int)
            rw [List.length_replicate]
            rfl
          · show ((List.replicate 256 (0 : UInt8)).length : Int) + 16 ≤ 256 + 16
            rw [List.length_replicate]
            decide
  obtain ⟨file, hw1, hw2⟩ := C27_round_trip y hy
  refine ⟨file, y, k, List.replicate (n * k - S.length) (dummyLine 256), ?_, hw2, rfl, ?_, hall, ?_, ?_⟩
  · unfold sectorTool openIds writeTo
    rw [hi]
    dsimp only
    rw [hx, Outcome.ok_bind, hcontent, Outcome.ok_bind, hw1, Outcome.ok_bind, if_pos hc]
    rfl
  · intro r hr
    obtain ⟨c1, c2, _⟩ := hre r hr
    refine ⟨c2, ?_⟩
    rw [c1]
    rfl
  · rw [List.length_replicate]
    omega
  · intro l hl
    rw [List.eq_of_mem_replicate hl]
    exact ⟨rfl, rfl⟩

/-- An image with less than 2656 lines in the file, as those of formats AC and B2, has no line in the sector: the tool
uses the first of no lines. -/
theorem C93_violated_no_sector (w : World) (content : Bytes) (x : OpenMTP_IDS) (hi : w.input = some content)
    (hx : readFile content = .ok x) (hlines : (allLines x).length ≤ 2655) : sectorTool w = .ub := by
  have hS : IdsToolsSpec.sectorLines x = [] := by
    unfold IdsToolsSpec.sectorLines
    rw [List.drop_of_length_le hlines, List.take_nil]
  unfold sectorTool openIds sectorContent sector
  rw [hi]
  dsimp only
  rw [hx, Outcome.ok_bind, sector_range, hS]
  rfl

/-- With up to eight lines in the sector there would be no line in a record: the number of records is the conversion of
an infinite number. -/
theorem C93_violated_short_sector (w : World) (content : Bytes) (x : OpenMTP_IDS) (hi : w.input = some content)
    (hx : readFile content = .ok x) (h1 : 2656 ≤ (allLines x).length) (h2 : (allLines x).length < 2664)
    (hpixels : ∀ l ∈ IdsToolsSpec.sectorLines x, 802 ≤ l.linepixel.length) : sectorTool w = .ub := by
  generalize hS : IdsToolsSpec.sectorLines x = S at hpixels
  have hn : 1 ≤ S.length ∧ S.length ≤ 8 := by
    rw [← hS]
    unfold IdsToolsSpec.sectorLines
    rw [List.length_take, List.length_drop]
    omega
  have hsec : sector x = .ub := by
    unfold sector
    rw [sector_range, hS, Outcome.ok_bind, sectorLines_ok hpixels, Outcome.ok_bind]
    unfold repack
    cases hcut : S.map cutLine with
    | nil => rfl
    | cons l0 rest =>
      have h256 : l0.linepixel.length = 256 := by
        have : l0 ∈ S.map cutLine := by rw [hcut]; exact List.mem_cons_self
        obtain ⟨q, hq, rfl⟩ := List.mem_map.1 this
        have := hpixels q hq
        show ((q.linepixel.drop 546).take 256).length = 256
        rw [List.length_take, List.length_drop]
        omega
      dsimp only
      rw [h256, ← hcut, List.length_map]
      have hk : recordLines S.length 256 = .ok 0 := by
        unfold recordLines
        rw [if_neg (by omega), show 32 * S.length / 256 = S.length / 8 by omega]
        dsimp only
        by_cases h8 : S.length = 8
        · rw [h8]
          decide +kernel
        · rw [show S.length / 8 = 0 by omega, Nat.sqrt_zero]
          rfl
      rw [hk]
      rfl
  unfold sectorTool openIds sectorContent
  rw [hi]
  dsimp only
  rw [hx, Outcome.ok_bind, hsec]
  rfl

theorem sectorLines_short {ls : List ScanLine} (h : ∃ l ∈ ls, l.linepixel.length < 802) : IdsTools.sectorLines ls = .ub := by
  induction ls with
  | nil => obtain ⟨_, h, _⟩ := h; cases h
  | cons l ls ih =>
    unfold IdsTools.sectorLines
    by_cases hl : 802 ≤ l.linepixel.length
    · rw [sectorLine_ok hl, Outcome.ok_bind, ih ?_]
      · rfl
      · obtain ⟨q, hq, hlt⟩ := h
        rcases List.mem_cons.1 hq with rfl | hq
        · omega
        · exact ⟨q, hq, hlt⟩
    · unfold sectorLine
      rw [if_neg (show ¬ pixel1 ≤ l.linepixel.length from hl)]
      rfl

/-- A line of the sector with less than 802 pixels is read after its end. -/
theorem C93_violated_short_line (w : World) (content : Bytes) (x : OpenMTP_IDS) (hi : w.input = some content)
    (hx : readFile content = .ok x) (hs : ∃ l ∈ IdsToolsSpec.sectorLines x, l.linepixel.length < 802) : sectorTool w = .ub := by
  unfold sectorTool openIds sectorContent sector
  rw [hi]
  dsimp only
  rw [hx, Outcome.ok_bind, sector_range, Outcome.ok_bind, sectorLines_short hs]
  rfl

/-! ### Two images -/

/-- An image of format B1: 312 records of 12 lines of 1248 pixels. -/
def b1Image : OpenMTP_IDS :=
  { fileheader := ⟨[0, 1], 313, 1998, 12, 10, 30, 1998, 13, 0, 0, 3, 3, 6, 4, str "METEOSAT", 20, 15200, 16, 4, 4, 0, 5, 1, 1, 1, 0, 0⟩
    record := List.replicate 312 ⟨⟨[0, 1], 8, 12, 15200, 0⟩, List.replicate 12 ⟨⟨1264, 1, 1, 1248, 4, 0, 0, 0⟩, List.replicate 1248 77⟩⟩ }

theorem flatMap_replicate_length {α β : Type} (n : Nat) (a : α) (f : α → List β) :
    ((List.replicate n a).flatMap f).length = n * (f a).length := by
  induction n with
  | zero => simp
  | succ n ih => rw [List.replicate_succ, List.flatMap_cons, List.length_append, ih, Nat.succ_mul, Nat.add_comm]

theorem b1Image_consistent : Consistent b1Image := by
  refine ⟨⟨rfl, rfl, by decide, ?_⟩, ?_, ?_⟩
  · unfold U16; decide
  · show (313 : Int) = ((List.replicate 312 _).length : Int) + 1
    rw [List.length_replicate]
    rfl
  · intro r hr
    rw [List.eq_of_mem_replicate hr]
    refine ⟨rfl, by unfold U16; decide, rfl, ?_⟩
    intro l hl
    rw [List.eq_of_mem_replicate hl]
    refine ⟨by unfold U16; decide, ?_, ?_⟩
    · show (1248 : Int) = ((List.replicate 1248 (77 : UInt8)).length : Int)
      rw [List.length_replicate]
      rfl
    · show ((List.replicate 1248 (77 : UInt8)).length : Int) + 16 ≤ 1264
      rw [List.length_replicate]
      decide

example : ∃ content, readFile content = .ok b1Image ∧ 2664 ≤ (allLines b1Image).length ∧
    ∀ l ∈ IdsToolsSpec.sectorLines b1Image, 802 ≤ l.linepixel.length := by
  obtain ⟨content, _, h⟩ := C27_round_trip _ b1Image_consistent
  refine ⟨content, h, ?_, ?_⟩
  · rw [show (allLines b1Image).length = 312 * (List.replicate 12 _).length from flatMap_replicate_length 312 _ _,
      List.length_replicate]
    decide
  · intro l hl
    have : l ∈ allLines b1Image := List.mem_of_mem_drop (List.mem_of_mem_take hl)
    obtain ⟨r, hr, hl'⟩ := List.mem_flatMap.1 this
    rw [List.eq_of_mem_replicate hr] at hl'
    rw [List.eq_of_mem_replicate hl']
    show 802 ≤ (List.replicate 1248 (77 : UInt8)).length
    rw [List.length_replicate]
    decide

/-- Two lines of each of three channels. -/
def threeChannels : OpenMTP_IDS :=
  let l (c : Int) (px : Bytes) : ScanLine := ⟨⟨19, 1, 1, 3, c, 0, 0, 0⟩, px⟩
  let r (ls : List ScanLine) : Record := ⟨⟨[0, 1], 8, 3, 65, 0⟩, ls⟩
  { fileheader := ⟨[0, 1], 3, 1998, 12, 10, 30, 1998, 13, 0, 0, 3, 3, 6, 4, str "METEOSAT", 20, 65, 1, 1, 1, 0, 5, 1, 1, 1, 0, 0⟩
    record := [r [l 3 [1, 2, 3], l 4 [4, 5, 6], l 6 [7, 8, 9]], r [l 3 [11, 12, 13], l 4 [14, 15, 16], l 6 [17, 18, 19]]] }

example : ∃ content, readFile content = .ok threeChannels ∧
    Rectangular 3 (IdsToolsSpec.channelRows threeChannels threeChannels.fileheader.vis_id) ∧
    kind threeChannels.fileheader.vis_id = some .visible ∧ kind threeChannels.fileheader.ir_id = some .infrared ∧
    kind threeChannels.fileheader.wv_id = some .waterVapour := by
  obtain ⟨bytes, h1⟩ : ∃ bytes, writeIds threeChannels = .ok bytes ∧ readFile bytes = .ok threeChannels := by
    refine C27_round_trip _ ⟨⟨rfl, rfl, by decide, ?_⟩, rfl, ?_⟩
    · unfold U16; decide
    · unfold RecordOk ScanLineOk U16; decide
  exact ⟨bytes, h1.2, ⟨by decide, by decide, by decide⟩, rfl, rfl, rfl⟩

end Msat.Props
