import Verif.Props.C87
import Verif.Props.C09_C12

/-
C89 The lines of a product are those in the bytes of its files.
-/
namespace Msat.Props
open Msat Machine Spec Hrit HritSpec
open Msat.Xrit (SegHeader SegData Coverage DataAccess lineRead geometry)

/-- The segments of a product on disk: file `i` (from 0) is an xRIT image file with compression whose
header says that it is segment `i + 1`, how many columns and lines it has, the channel, the number of
segments planned, the format of the compressed data and the column scaling factor, and from whose data
field the decompression library makes the image `imgs i`.  There is memory. -/
structure Segments (env : Env) (disk : Disk) (files : Nat → Bytes) (n cols lines channel planned format : Nat)
    (cfac : Int) (imgs : Nat → List Nat) : Prop where
  named : ∀ i < n, files i ≠ []
  known : format = 1 ∨ format = 2 ∨ format = 3
  memory : ∀ k, env.alloc k = true
  file : ∀ i < n, ∃ rs data rest bpp comp sc start lfac coff loff,
    disk (files i) = some (fileOf 0 rs data rest) ∧ FileOk 0 rs data ∧
    structureOf rs = some (bpp, cols, lines, comp) ∧ comp ≠ 0 ∧
    segmentOf rs = some (sc, channel, i + 1, start, planned, format) ∧
    navigationOf rs = some (cfac, lfac, coff, loff) ∧
    env.decode format bpp cols lines data = .ok (imgs i) ∧ (imgs i).length = cols * lines

/-- The header of one file on its own. -/
def headerAlone (disk : Disk) (name : Bytes) : Outcome SegHeader := do
  let h ← readFileHeader disk .fresh name
  segHeader h

section
variable {env : Env} {disk : Disk} {files : Nat → Bytes} {n cols lines channel planned format : Nat}
  {cfac : Int} {imgs : Nat → List Nat}

theorem Segments.header (h : Segments env disk files n cols lines channel planned format cfac imgs)
    {i : Nat} (hi : i < n) (h0 : Header) : ∃ h' s, readFileHeader disk h0 (files i) = .ok h' ∧
      h'.segmentId = some s ∧ s.format = format ∧ s.sequence = i + 1 ∧
      segHeader h' = .ok { format := format, sequence := i + 1, plannedEnd := planned, channel := channel,
                           lines := lines, columns := cols, cfac := cfac } := by
  obtain ⟨rs, data, rest, bpp, comp, sc, start, lfac, coff, loff, hd, hf, hs, _, hid, hnav, _⟩ := h.file i hi
  have h1 := headerOf_structure h0 0 rs data
  have h2 := headerOf_segment h0 0 rs data
  have h3 := headerOf_navigation h0 0 rs data
  rw [hs] at h1
  rw [hid] at h2
  rw [hnav] at h3
  simp only [Option.map_some, Option.some_or] at h1 h2 h3
  refine ⟨headerOf h0 0 rs data, _, ?_, h2, rfl, rfl, ?_⟩
  · simp only [readFileHeader, hd, readHeader_file hf, Outcome.ok_bind, Outcome.pure_eq]
  · cases hn : (headerOf h0 0 rs data).imageNavigation with
    | none => rw [hn] at h3; cases h3
    | some nav =>
      rw [hn] at h3
      have hc : nav.cfac = cfac := congrArg Prod.fst (Option.some.inj h3)
      simp only [segHeader, h1, h2, hn, hc, imageStructOf]

theorem Segments.productFiles (h : Segments env disk files n cols lines channel planned format cfac imgs) :
    ProductFiles (headerAlone disk) files n
      { format := format, sequence := 0, plannedEnd := planned, channel := channel, lines := lines,
        columns := cols, cfac := cfac } := by
  refine ⟨fun i hi => ?_, h.named, ?_⟩
  · obtain ⟨h', s, e, _, _, _, hs⟩ := h.header hi .fresh
    simp only [headerAlone, e, Outcome.ok_bind, hs]
  · have := h.known
    show format ≠ 0
    omega

theorem Segments.data (h : Segments env disk files n cols lines channel planned format cfac imgs)
    {i : Nat} (hi : i < n) : segDisk env disk (files i) = .ok ⟨some (imgs i)⟩ := by
  obtain ⟨rs, data, rest, bpp, comp, sc, start, lfac, coff, loff, hd, hf, hs, hc, hid, _, hdec, hl⟩ := h.file i hi
  obtain ⟨h', e⟩ := C87_image env rs data rest hf bpp cols lines comp sc channel (i + 1) start planned format
    hs hc hid h.known _ hdec (Nat.le_of_eq hl.symm) (h.memory _) (h.memory _)
  have h2 := headerOf_segment .fresh 0 rs data
  rw [hid] at h2
  simp only [Option.map_some, Option.some_or] at h2
  have hz : format ≠ 0 := by have := h.known; omega
  rw [readFile_eq hf] at e
  obtain ⟨⟨d, w⟩, e1, e2⟩ := Outcome.of_bind_ok e
  injection e2 with e2
  simp only [Prod.mk.injEq] at e2
  obtain ⟨_, rfl, rfl⟩ := e2
  simp only [segDisk, readFileData, hd, readHeader_file hf, Outcome.ok_bind, h2, Option.map_some,
    if_neg (show ¬ some format = some 0 by simpa using hz), e1, Outcome.pure_eq]
  rw [List.take_of_length_le (Nat.le_of_eq hl)]

theorem Segments.scanHeaders (h : Segments env disk files n cols lines channel planned format cfac imgs)
    (present : List Nat) (hpr : ∀ i ∈ present, i < n) : ∀ (names : List Bytes) (h0 : Header) (last : Option SegHeader),
    ∃ names' h' last', Hrit.scanHeaders disk (present.map files) (names, h0) = .ok (names', h') ∧
      Xrit.scanFiles (headerAlone disk) (present.map files) (names, last) = .ok (names', last') ∧
      (present ≠ [] → ∃ s, segHeader h' = .ok s ∧ last' = some s ∧ s.channel = channel) := by
  induction present with
  | nil => intro names h0 last; exact ⟨names, h0, last, rfl, rfl, by simp⟩
  | cons p ps ih =>
    intro names h0 last
    have hp := hpr p (by simp)
    obtain ⟨h', s, e, hs, hfm, hsq, hsh⟩ := h.header hp h0
    obtain ⟨h'', s', e', _, _, _, hsh'⟩ := h.header hp .fresh
    have ha : headerAlone disk (files p) = .ok {
        format := format, sequence := p + 1, plannedEnd := planned,
        channel := channel, lines := lines, columns := cols, cfac := cfac } := by
      simp only [headerAlone, e', Outcome.ok_bind, hsh']
    have hz : format ≠ 0 := by have := h.known; omega
    obtain ⟨names', hl, last', i1, i2, i3⟩ := ih (fun i hi => hpr i (by simp [hi]))
      (Xrit.setName names p (files p)) h'
      (some { format := format, sequence := p + 1, plannedEnd := planned, channel := channel,
              lines := lines, columns := cols, cfac := cfac })
    refine ⟨names', hl, last', ?_, ?_, fun _ => ?_⟩
    · simp only [List.map_cons, Hrit.scanHeaders, e, Outcome.ok_bind, hs, hfm, hsq, if_neg hz,
        if_neg (Nat.succ_ne_zero p), Nat.add_sub_cancel, i1]
    · simp only [List.map_cons, Xrit.scanFiles, ha, Outcome.ok_bind, if_neg hz,
        if_neg (Nat.succ_ne_zero p), Nat.add_sub_cancel, i2]
    · by_cases hps : ps = []
      · subst hps
        cases i1; cases i2
        exact ⟨_, hsh, rfl, rfl⟩
      · exact i3 hps

/-- What `scan` makes of the files of a product is what it would make of their headers read one by one. -/
theorem Segments.scan_eq (h : Segments env disk files n cols lines channel planned format cfac imgs)
    (present : List Nat) (hpr : ∀ i ∈ present, i < n) (hne : present ≠ []) (cov : Option Coverage)
    (hcov : channel = 12 → cov.isSome) :
    Hrit.scanFiles disk cov (present.map files)
      = Xrit.scan (headerAlone disk) (cov.getD ⟨0, 0, 0, 0, 0, 0, 0, 0⟩) (present.map files) := by
  obtain ⟨names, h', last, e1, e2, e3⟩ := h.scanHeaders present hpr [] .fresh none
  obtain ⟨s, hs, rfl, hc⟩ := e3 hne
  simp only [Hrit.scanFiles, Xrit.scan, e1, e2, Outcome.ok_bind, hs, Outcome.pure_eq]
  split
  · rfl
  · by_cases h12 : s.channel = 12
    · obtain ⟨c, rfl⟩ := Option.isSome_iff_exists.1 (hcov (hc ▸ h12))
      simp only [if_pos h12, Option.getD_some]
    · simp only [if_neg h12]

/-- C89: a product whose segments are files on disk, of which those in `present` were found, in any
order: it opens, and every line, after any other lines were read, is the line that the decompression
library made of the data field of the file of its segment, from the end if the columns are numbered
from the other side, or zeros if the segment was not found. -/
theorem C89_lines (h : Segments env disk files n cols lines channel planned format cfac imgs)
    (present : List Nat) (hpr : ∀ i ∈ present, i < n) (hne : present ≠ []) (cov : Option Coverage)
    (hcov : channel = 12 → cov.isSome) (total : Nat)
    (htot : total = if channel = 12 then (cov.elim 0 fun c => max c.lowerNorth c.upperNorth) else 3712)
    (hfits : total < 2 ^ 64) (hcovers : n * lines = total) :
    ∃ da, Hrit.scanFiles disk cov (present.map files) = .ok da ∧
      da.columns = cols ∧ da.seglines = lines ∧ da.lines = lines * planned ∧
      ∀ (history : List Nat) (seg row : Nat), seg < n → row < lines →
        ∃ r, (lineRead da (segDisk env disk) (afterLines da (segDisk env disk) history)
            (total - 1 - (seg * lines + row))).1 = .ok r ∧ r.length = cols ∧
          ∀ c < cols, r[c]? = if seg ∈ present
            then (imgs seg)[row * cols + (if cfac < 0 then cols - 1 - c else c)]? else some 0 := by
  rw [h.scan_eq present hpr hne cov hcov]
  have hp := h.productFiles
  have htot' : total = if channel = 12 then max (cov.getD ⟨0, 0, 0, 0, 0, 0, 0, 0⟩).lowerNorth
      (cov.getD ⟨0, 0, 0, 0, 0, 0, 0, 0⟩).upperNorth else 3712 := by
    rw [htot]
    by_cases h12 : channel = 12
    · obtain ⟨c, rfl⟩ := Option.isSome_iff_exists.1 (hcov h12)
      rfl
    · rw [if_neg h12, if_neg h12]
  generalize cov.getD ⟨0, 0, 0, 0, 0, 0, 0, 0⟩ = cv at *
  obtain ⟨p, hp'⟩ := List.exists_mem_of_ne_nil present hne
  have hn : n ≠ 0 := by have := hpr p hp'; omega
  obtain ⟨names, g1, g2⟩ := scan_spec hp cv (List.range n) (by simp) (by simpa using hn)
  obtain ⟨all, part, e1, e2, e3, _, e5⟩ := C10_missing_segments hp cv (segDisk env disk) present hpr hne total
    htot' hfits
  rw [g1] at e1
  injection e1 with e1
  have hac : all.columns = cols := by rw [← e1]; rfl
  have hal : all.seglines = lines := by rw [← e1]; rfl
  have hall : all.lines = lines * planned := by rw [← e1]; rfl
  have hsw : all.swapX = decide (cfac < 0) := by rw [← e1]; rfl
  have hnm : all.segnames = names := by rw [← e1]; rfl
  have hhrv : all.hrv = (channel == 12) := by rw [← e1]; rfl
  have hmax : all.maxLine = max cv.lowerNorth cv.upperNorth := by rw [← e1]; rfl
  have hso : all.southLine = 1 := by rw [← e1]; rfl
  have hfull : FullProduct all (segDisk env disk) n total imgs := by
    have hname : ∀ i < n, XritSpec.nameOf all i = files i := by
      intro i hi
      rw [XritSpec.nameOf, hnm, g2 i, if_pos (by simpa using hi)]
    refine ⟨fun i hi => ?_, fun i hi => ?_, fun i hi => ?_, hal.symm ▸ hcovers, ?_, hso, hfits⟩
    · rw [hname i hi]; exact h.named i hi
    · rw [hname i hi]; exact h.data hi
    · obtain ⟨_, _, _, _, _, _, _, _, _, _, _, _, _, _, _, _, _, hl⟩ := h.file i hi
      rw [hl, Nat.mul_comm, hal, hac]
    · rw [htot', hhrv, hmax]
      simp only [beq_iff_eq]
  simp only [Prod.mk.injEq] at e3
  refine ⟨part, e2, e3.1.trans hac, e3.2.1.trans hal, e3.2.2.1.trans hall, ?_⟩
  intro history seg row hs hr
  have hin : seg * lines + row < total := by
    have := ((C09_bijection hcovers).2 seg hs row hr).2
    exact this
  have := e5 history [] seg row hs hr hin
  dsimp only at this
  rw [this]
  by_cases hm : seg ∈ present
  · simp only [if_pos hm]
    obtain ⟨r, r1, r2, r3⟩ := C09_line_content hfull [] seg row hs (hal.symm ▸ hr)
    rw [hal] at r1
    refine ⟨r, r1, r2.trans hac, fun c hc => ?_⟩
    rw [r3 c (by rw [hac]; exact hc), hac, hsw]
    simp only [decide_eq_true_eq]
  · simp only [if_neg hm]
    exact ⟨_, rfl, by simp, fun c hc => by rw [List.getElem?_replicate, if_pos hc]⟩

end

/-- A segment of 1856 lines of a product of two. -/
def aSegmentFile (i : Nat) : List Rec :=
  [.imageStructure 10 2 1856 1, .segmentId 321 4 (i + 1) 1 2 2,
   .navigation (str "GEOS(+000.0)" ++ List.replicate 20 32) (-13642337) (-13642337) 1856 1856]

/-- A machine that decompresses anything to the numbers from 0. -/
def aDecoder : Env :=
  { alloc := fun _ => true, decode := fun _ _ c l _ => .ok (List.range (c * l)), creatable := fun _ => false }

theorem aSegmentFile_ok (i : Nat) (hi : i < 2) : FileOk 0 (aSegmentFile i) [9, 9] := by
  have : i = 0 ∨ i = 1 := by omega
  rcases this with rfl | rfl
  all_goals
    refine fileOk_plain (by decide) (by decide) (by decide +kernel) ?_ (by simp [aSegmentFile])
    intro r hr
    simp only [aSegmentFile, List.mem_cons, List.not_mem_nil, or_false] at hr
    rcases hr with rfl | rfl | rfl <;> simp only [Rec.InRange] <;> decide +kernel

example : Segments aDecoder
    (fun f => if f = [1] then some (fileOf 0 (aSegmentFile 0) [9, 9] [])
      else if f = [2] then some (fileOf 0 (aSegmentFile 1) [9, 9] []) else none)
    (fun i => if i = 0 then [1] else [2]) 2 2 1856 4 2 2 (-13642337) (fun _ => List.range (2 * 1856)) := by
  refine ⟨fun i hi => by split <;> simp, by decide, fun _ => rfl, fun i hi => ?_⟩
  refine ⟨aSegmentFile i, [9, 9], [], 10, 1, 321, 1, -13642337, 1856, 1856, ?_, aSegmentFile_ok i hi,
    rfl, by decide, rfl, rfl, rfl, by simp⟩
  have : i = 0 ∨ i = 1 := by omega
  rcases this with rfl | rfl <;> simp

/-- A file among the segments without a segment identification record takes the identity of the file
read before it, and its place: one header object is used for all of them, and keeps the records of the
previous file. -/
theorem C89_violated_inherits (disk : Disk) (a b : Bytes) (ra rb : List Rec) (da db xa xb : Bytes)
    (ha : disk a = some (fileOf 0 ra da xa)) (hb : disk b = some (fileOf 0 rb db xb))
    (oa : FileOk 0 ra da) (ob : FileOk 0 rb db) (sc ch start planned format : Nat)
    (hs : segmentOf ra = some (sc, ch, 1, start, planned, format)) (hf : format ≠ 0)
    (hi : structureOf ra ≠ none) (hn : navigationOf ra ≠ none) (hno : segmentOf rb = none)
    (h12 : ch ≠ 12) :
    ∃ p, Hrit.scanFiles disk none [a, b] = .ok p ∧ p.segnames = [b] := by
  have h1 := headerOf_segment .fresh 0 ra da
  rw [hs] at h1
  simp only [Option.map_some, Option.some_or] at h1
  have h2 := headerOf_segment (headerOf .fresh 0 ra da) 0 rb db
  rw [hno, h1] at h2
  simp only [Option.map_none, Option.none_or] at h2
  have h3 : ((headerOf (headerOf .fresh 0 ra da) 0 rb db).imageStructure).isSome := by
    rw [headerOf_structure, headerOf_structure]
    obtain ⟨x, hx⟩ := Option.ne_none_iff_exists'.1 hi
    rw [hx]
    cases structureOf rb <;> rfl
  have h4 : ((headerOf (headerOf .fresh 0 ra da) 0 rb db).imageNavigation).isSome := by
    obtain ⟨x, hx⟩ := Option.ne_none_iff_exists'.1 hn
    have := headerOf_navigation (headerOf .fresh 0 ra da) 0 rb db
    rw [headerOf_navigation .fresh 0 ra da, hx] at this
    have h5 := congrArg Option.isSome this
    rw [Option.isSome_map] at h5
    rw [h5]
    cases navigationOf rb <;> rfl
  obtain ⟨i, h3⟩ := Option.isSome_iff_exists.1 h3
  obtain ⟨nav, h4⟩ := Option.isSome_iff_exists.1 h4
  suffices ∃ s c, Hrit.scanFiles disk none [a, b] = .ok (geometry [b] s c) by
    obtain ⟨s, c, e⟩ := this
    exact ⟨_, e, rfl⟩
  refine ⟨{ format := format, sequence := 1, plannedEnd := planned, channel := ch, lines := i.lines,
            columns := i.columns, cfac := nav.cfac }, ⟨0, 0, 0, 0, 0, 0, 0, 0⟩, ?_⟩
  · simp only [Hrit.scanFiles, Hrit.scanHeaders, readFileHeader, ha, hb, readHeader_file oa, readHeader_file ob,
      Outcome.ok_bind, Outcome.pure_eq, h1, h2, if_neg hf, if_neg Nat.one_ne_zero, segHeader, h3, h4, if_neg h12]
    rfl

/-- If it is the first one, a null pointer is dereferenced. -/
theorem C89_violated_first (disk : Disk) (cov : Option Coverage) (b : Bytes) (more : List Bytes) (rb : List Rec)
    (db xb : Bytes) (hb : disk b = some (fileOf 0 rb db xb)) (ob : FileOk 0 rb db) (hno : segmentOf rb = none) :
    Hrit.scanFiles disk cov (b :: more) = .ub := by
  have h2 := headerOf_segment .fresh 0 rb db
  rw [hno] at h2
  have h2 : (headerOf .fresh 0 rb db).segmentId = none := h2
  simp only [Hrit.scanFiles, Hrit.scanHeaders, readFileHeader, hb, readHeader_file ob,
      Outcome.ok_bind, Outcome.pure_eq, h2, Outcome.ub_bind]

example : ∃ rb : List Rec, FileOk 0 rb [1] ∧ segmentOf rb = none :=
  ⟨annotated "MSG1________", (annotated_ok 0 (by decide) _ (by decide)).2, rfl⟩

end Msat.Props
