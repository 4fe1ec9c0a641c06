import Mathlib.Tactic.SplitIfs
import Verif.Props.C08
import Verif.Spec.RasterBlock

/-
C09 Each image line is read from its own segment row.
C10 Missing segments read as missing data and never shift other lines.
C11 HRV lines are placed inside the full-disk row.
C12 A raster block request fills exactly one row.
-/
namespace Msat.Props
open Msat Xrit XritSpec

theorem u64sub_of_le {a b : Nat} (h : b ≤ a) (ha : a < 2 ^ 64) : u64sub a b = a - b := by
  unfold u64sub; omega

/-- A product of `n` segments of `seglines` rows, `imgs i` being the samples of the file of segment
`i`, that cover `total` lines. -/
structure FullProduct (da : DataAccess) (disk : Bytes → Outcome SegData) (n total : Nat)
    (imgs : Nat → List Nat) : Prop where
  named : ∀ i < n, nameOf da i ≠ []
  read : ∀ i < n, disk (nameOf da i) = .ok ⟨some (imgs i)⟩
  size : ∀ i < n, (imgs i).length = da.seglines * da.columns
  covers : n * da.seglines = total
  height : total = if da.hrv then da.maxLine else 3712
  south : da.southLine = 1
  fits : total < 2 ^ 64

theorem FullProduct.rowNumber_eq {da : DataAccess} {disk : Bytes → Outcome SegData} {n total : Nat}
    {imgs : Nat → List Nat} (h : FullProduct da disk n total imgs) {line : Nat} (hl : line < total) :
    rowNumber da line = total - 1 - line := by
  have h1 := h.height
  have h2 := h.fits
  unfold rowNumber
  split
  · rename_i hv
    rw [if_pos hv] at h1
    rw [u64sub_of_le (a := da.maxLine) (by omega) (by omega), u64sub_of_le (by omega) (by omega)]; omega
  · rename_i hv
    rw [if_neg hv] at h1
    rw [u64sub_of_le (a := 3712) (by omega) (by omega), h.south, u64sub_of_le (by omega) (by omega)]; omega

/-- Each image line comes from exactly one row of one segment, and each row of each segment is one
image line: lines are numbered from the north, rows of the segments from the south. -/
theorem C09_bijection {seglines n total : Nat} (hc : n * seglines = total) :
    (∀ line < total, ∃ seg row, (seg < n ∧ row < seglines ∧ line = total - 1 - (seg * seglines + row)) ∧
      ∀ seg' row', seg' < n → row' < seglines → line = total - 1 - (seg' * seglines + row') →
        seg' = seg ∧ row' = row) ∧
    (∀ seg < n, ∀ row < seglines, total - 1 - (seg * seglines + row) < total ∧
      seg * seglines + row < total) := by
  have bound : ∀ seg < n, ∀ row < seglines, seg * seglines + row < total := by
    intro seg hs row hr
    have : (seg + 1) * seglines ≤ n * seglines := Nat.mul_le_mul_right _ hs
    rw [Nat.add_mul] at this
    omega
  refine ⟨fun line hl => ?_, fun seg hs row hr => ?_⟩
  · have hpos : 0 < seglines := by
      rcases Nat.eq_zero_or_pos seglines with h | h
      · subst h; omega
      · exact h
    have hd := Nat.div_add_mod (total - 1 - line) seglines
    have hm := Nat.mod_lt (total - 1 - line) hpos
    have hdl : (total - 1 - line) / seglines < n := by
      rw [Nat.div_lt_iff_lt_mul hpos]; omega
    rw [Nat.mul_comm] at hd
    refine ⟨(total - 1 - line) / seglines, (total - 1 - line) % seglines, ⟨hdl, hm, by omega⟩, ?_⟩
    intro seg' row' hs' hr' e
    have hb := bound seg' hs' row' hr'
    have e' : total - 1 - line = seglines * seg' + row' := by rw [Nat.mul_comm]; omega
    rw [e']
    constructor
    · rw [Nat.mul_add_div hpos, Nat.div_eq_of_lt hr', Nat.add_zero]
    · rw [Nat.mul_add_mod, Nat.mod_eq_of_lt hr']
  · have := bound seg hs row hr
    omega

/-- The line that corresponds to row `row` of segment `seg` is read, whatever was read before, as the
samples of that row, reversed when the columns of the file go from east to west. -/
theorem C09_line_content {da : DataAccess} {disk : Bytes → Outcome SegData} {n total : Nat}
    {imgs : Nat → List Nat} (h : FullProduct da disk n total imgs) (history : List Nat)
    (seg row : Nat) (hs : seg < n) (hr : row < da.seglines) :
    ∃ r, (lineRead da disk (afterLines da disk history) (total - 1 - (seg * da.seglines + row))).1 = .ok r ∧
      r.length = da.columns ∧
      ∀ c < da.columns, r[c]? =
        (imgs seg)[row * da.columns + (if da.swapX then da.columns - 1 - c else c)]? := by
  obtain ⟨hl, hb⟩ := (C09_bijection h.covers).2 seg hs row hr
  rw [(C08_lines_history_independent da disk history _).1, freshLine_eq, h.rowNumber_eq hl]
  have e : total - 1 - (total - 1 - (seg * da.seglines + row)) = da.seglines * seg + row := by
    rw [Nat.mul_comm da.seglines]; omega
  have hpos : 0 < da.seglines := by omega
  rw [e, if_neg (by omega), Nat.mul_add_div hpos, Nat.div_eq_of_lt hr, Nat.mul_add_mod,
    Nat.mod_eq_of_lt hr, Nat.add_zero, direct, if_neg (h.named seg hs), h.read seg hs]
  have hfit : row * da.columns + da.columns ≤ (imgs seg).length := by
    rw [h.size seg hs, ← Nat.succ_mul]
    exact Nat.mul_le_mul_right _ hr
  simp only [Outcome.bind, rowOf, if_pos hfit]
  have hlen : (((imgs seg).drop (row * da.columns)).take da.columns).length = da.columns := by
    rw [List.length_take, List.length_drop]; omega
  refine ⟨_, rfl, ?_, ?_⟩
  · split
    · rw [List.length_reverse, hlen]
    · exact hlen
  · intro c hcol
    split
    · rw [List.getElem?_reverse (by omega), hlen, List.getElem?_take, if_pos (by omega),
        List.getElem?_drop]
    · rw [List.getElem?_take, if_pos hcol, List.getElem?_drop]

/-- A line outside of the image (to the north of the first line announced by the epilogue, or beyond
the last one) reads as zeros. -/
theorem C09_outside_is_zero {da : DataAccess} {disk : Bytes → Outcome SegData} {n total : Nat}
    {imgs : Nat → List Nat} (h : FullProduct da disk n total imgs) (history : List Nat) (line : Nat)
    (hl : total ≤ line) (hl' : line < 2 ^ 32) (hn : da.segnames.length = n) (ht : total < 2 ^ 62)
    (hpos : 0 < da.seglines) :
    (lineRead da disk (afterLines da disk history) line).1 = .ok (List.replicate da.columns 0) := by
  rw [(C08_lines_history_independent da disk history _).1, freshLine_eq, if_neg (by omega)]
  have hbig : total ≤ rowNumber da line := by
    have h1 := h.height
    unfold rowNumber u64sub
    split
    · rename_i hv; rw [if_pos hv] at h1; omega
    · rename_i hv; rw [if_neg hv] at h1; rw [h.south]; omega
  have hq : n ≤ rowNumber da line / da.seglines := by
    rw [Nat.le_div_iff_mul_le hpos, h.covers]; exact hbig
  have hnone : nameOf da (rowNumber da line / da.seglines) = [] := by
    rw [nameOf, List.getElem?_eq_none (by omega)]; rfl
  rw [direct, if_pos hnone]
  rfl

/-! ## C10 -/

theorem setName_get (names : List Bytes) (idx : Nat) (f : Bytes) (i : Nat) :
    ((setName names idx f)[i]?).getD [] = if i = idx then f else (names[i]?).getD [] := by
  unfold setName
  have hlen : idx < (names ++ List.replicate (idx + 1 - names.length) ([] : Bytes)).length := by
    simp; omega
  rw [List.getElem?_set]
  split
  · rename_i e; subst e
    simp only [if_true, Option.getD_some]
  · rename_i e
    rw [if_neg (fun h => e h.symm)]
    by_cases hi : i < names.length
    · rw [List.getElem?_append_left hi]
    · rw [List.getElem?_append_right (by omega), List.getElem?_eq_none (l := names) (by omega),
        List.getElem?_replicate]
      split <;> rfl

theorem setName_length (names : List Bytes) (idx : Nat) (f : Bytes) :
    (setName names idx f).length = max names.length (idx + 1) := by
  unfold setName
  simp; omega

/-- The files of a product: file `i` (from 0) holds segment number `i + 1` and all of them have the
same geometry. -/
structure ProductFiles (hdr : Bytes → Outcome SegHeader) (files : Nat → Bytes) (n : Nat)
    (base : SegHeader) : Prop where
  header : ∀ i < n, hdr (files i) = .ok { base with sequence := i + 1 }
  named : ∀ i < n, files i ≠ []
  format : base.format ≠ 0

theorem scanFiles_spec {hdr : Bytes → Outcome SegHeader} {files : Nat → Bytes} {n : Nat}
    {base : SegHeader} (hp : ProductFiles hdr files n base) (present : List Nat)
    (hpr : ∀ i ∈ present, i < n) : ∀ (names : List Bytes) (last : Option SegHeader),
    ∃ names' last', scanFiles hdr (present.map files) (names, last) = .ok (names', last') ∧
      (∀ i, (names'[i]?).getD [] = if i ∈ present then files i else (names[i]?).getD []) ∧
      names'.length ≤ max names.length n ∧ (present ≠ [] → names' ≠ []) ∧
      (present ≠ [] → ∃ k, last' = some { base with sequence := k }) := by
  induction present with
  | nil => intro names last; exact ⟨names, last, rfl, by simp, by omega, by simp, by simp⟩
  | cons p ps ih =>
    intro names last
    have hpn := hpr p (by simp)
    obtain ⟨names', last', h1, h2, h3, h4, h5⟩ := ih (fun i hi => hpr i (by simp [hi]))
      (setName names p (files p)) (some { base with sequence := p + 1 })
    refine ⟨names', last', ?_, ?_, ?_, ?_, ?_⟩
    · rw [List.map_cons, scanFiles, hp.header p hpn, Outcome.ok_bind]
      simp only [if_neg hp.format]
      rw [if_neg (by omega), Nat.add_sub_cancel]
      exact h1
    · intro i
      rw [h2 i, setName_get]
      by_cases hi : i ∈ ps
      · simp [hi]
      · by_cases e : i = p
        · simp [e]
        · simp [hi, e]
    · rw [setName_length] at h3; omega
    · intro _ hn
      have := h2 p
      rw [hn, setName_get] at this
      have hne := hp.named p hpn
      by_cases hi : p ∈ ps
      · simp [hi, eq_comm, hne] at this
      · simp [hi, eq_comm, hne] at this
    · intro _
      by_cases hps : ps = []
      · subst hps
        simp only [List.map_nil, scanFiles, Outcome.ok.injEq, Prod.mk.injEq] at h1
        exact ⟨p + 1, h1.2.symm⟩
      · exact h5 hps

/-- Scanning any non-empty part of the files of a product, in any order, gives the geometry of the
product and the names of exactly the files present, at the place of their segment. -/
theorem scan_spec {hdr : Bytes → Outcome SegHeader} {files : Nat → Bytes} {n : Nat}
    {base : SegHeader} (hp : ProductFiles hdr files n base) (cov : Coverage) (present : List Nat)
    (hpr : ∀ i ∈ present, i < n) (hne : present ≠ []) :
    ∃ names, scan hdr cov (present.map files) = .ok (geometry names base cov) ∧
      ∀ i, (names[i]?).getD [] = if i ∈ present then files i else [] := by
  obtain ⟨names, last, h1, h2, _, h4, h5⟩ := scanFiles_spec hp present hpr [] none
  obtain ⟨k, hk⟩ := h5 hne
  refine ⟨names, ?_, by simpa using h2⟩
  rw [scan, h1, Outcome.ok_bind]
  simp only [if_neg (h4 hne), hk]
  rfl

/-- If only the segments in `present` are on disk, the lines of the absent segments read as zeros and
every other line reads as in the complete product, whatever was read before. -/
theorem missing_segments {hdr : Bytes → Outcome SegHeader} {files : Nat → Bytes} {n : Nat}
    {base : SegHeader} (hp : ProductFiles hdr files n base) (cov : Coverage)
    (disk : Bytes → Outcome SegData) (present : List Nat)
    (hpr : ∀ i ∈ present, i < n) (hne : present ≠ []) :
    ∃ all part, scan hdr cov ((List.range n).map files) = .ok all ∧
      scan hdr cov (present.map files) = .ok part ∧
      part.columns = base.columns ∧ part.seglines = base.lines ∧
      ∀ (history history' : List Nat) (line : Nat), 0 < base.lines →
        (lineRead part disk (afterLines part disk history) line).1 =
          if rowNumber all line / base.lines ∈ present ∨ n ≤ rowNumber all line / base.lines
          then (lineRead all disk (afterLines all disk history') line).1
          else .ok (List.replicate base.columns 0) := by
  obtain ⟨p, hp'⟩ := List.exists_mem_of_ne_nil present hne
  have hn : n ≠ 0 := by have := hpr p hp'; omega
  obtain ⟨names, h1, h2⟩ := scan_spec hp cov (List.range n) (by simp) (by simpa using hn)
  obtain ⟨names', h1', h2'⟩ := scan_spec hp cov present hpr hne
  refine ⟨_, _, h1, h1', rfl, rfl, fun history history' line hpos => ?_⟩
  rw [(C08_lines_history_independent _ disk history _).1,
    (C08_lines_history_independent _ disk history' _).1, freshLine_eq, freshLine_eq]
  have hrow : rowNumber (geometry names' base cov) line = rowNumber (geometry names base cov) line := rfl
  have hsl : (geometry names' base cov).seglines = base.lines := rfl
  have hsl' : (geometry names base cov).seglines = base.lines := rfl
  have hz : base.lines ≠ 0 := by omega
  rw [hrow, hsl, hsl', if_neg hz, if_neg hz]
  generalize rowNumber (geometry names base cov) line = r
  have hname : ∀ i, nameOf (geometry names base cov) i = if i ∈ List.range n then files i else [] := h2
  have hname' : ∀ i, nameOf (geometry names' base cov) i = if i ∈ present then files i else [] := h2'
  have hrowof : ∀ k d, rowOf (geometry names' base cov) k d = rowOf (geometry names base cov) k d :=
    fun _ _ => rfl
  by_cases hin : r / base.lines ∈ present
  · rw [if_pos (.inl hin), direct, direct, hname, hname', if_pos hin,
      if_pos (List.mem_range.2 (hpr _ hin))]
    simp only [funext fun d => hrowof (r % base.lines) d]
  · by_cases hge : n ≤ r / base.lines
    · rw [if_pos (.inr hge), direct, direct, hname, hname', if_neg hin,
        if_neg (fun h => absurd (List.mem_range.1 h) (by omega))]
      rfl
    · rw [if_neg (by simp [hin]; omega), direct, hname', if_neg hin]
      rfl

/-- If only the files of the segments in `present` are on disk, the product opens with the same geometry
as the complete product, and every line, read after any history, is the line of the complete product if
its segment is there and a line of zeros if it is not.  The line of row `row` of segment `seg` is counted
from the north on the full disk (3712 lines) or, for the high resolution channel, from the northernmost
line announced by the epilogue. -/
theorem C10_missing_segments {hdr : Bytes → Outcome SegHeader} {files : Nat → Bytes} {n : Nat}
    {base : SegHeader} (hp : ProductFiles hdr files n base) (cov : Coverage)
    (disk : Bytes → Outcome SegData) (present : List Nat)
    (hpr : ∀ i ∈ present, i < n) (hne : present ≠ []) (total : Nat)
    (htot : total = if base.channel = 12 then max cov.lowerNorth cov.upperNorth else 3712)
    (hfits : total < 2 ^ 64) :
    ∃ all part, scan hdr cov ((List.range n).map files) = .ok all ∧
      scan hdr cov (present.map files) = .ok part ∧
      (part.columns, part.seglines, part.lines, part.hrv) = (all.columns, all.seglines, all.lines, all.hrv) ∧
      (∀ line, lineStart part line = lineStart all line) ∧
      ∀ (history history' : List Nat) (seg row : Nat), seg < n → row < base.lines →
        seg * base.lines + row < total →
        (lineRead part disk (afterLines part disk history) (total - 1 - (seg * base.lines + row))).1 =
          if seg ∈ present
          then (lineRead all disk (afterLines all disk history') (total - 1 - (seg * base.lines + row))).1
          else .ok (List.replicate base.columns 0) := by
  obtain ⟨p, hp'⟩ := List.exists_mem_of_ne_nil present hne
  have hn : n ≠ 0 := by have := hpr p hp'; omega
  obtain ⟨names, h1, h2⟩ := scan_spec hp cov (List.range n) (by simp) (by simpa using hn)
  obtain ⟨names', h1', h2'⟩ := scan_spec hp cov present hpr hne
  obtain ⟨all, part, e1, e2, -, -, h⟩ := missing_segments hp cov disk present hpr hne
  rw [h1] at e1; rw [h1'] at e2
  cases e1; cases e2
  refine ⟨_, _, h1, h1', rfl, fun _ => rfl, fun history history' seg row hs hr hin => ?_⟩
  have hrow : rowNumber (geometry names base cov) (total - 1 - (seg * base.lines + row))
      = base.lines * seg + row := by
    rw [Nat.mul_comm base.lines]
    by_cases hv : base.channel = 12
    · rw [if_pos hv] at htot
      have hh : (geometry names base cov).hrv = true := by simp [geometry, hv]
      have hm : (geometry names base cov).maxLine = total := by simp [geometry, htot]
      rw [rowNumber, if_pos hh, hm, u64sub_of_le (a := total) (by omega) (by omega),
        u64sub_of_le (by omega) (by omega)]; omega
    · rw [if_neg hv] at htot
      have hh : ¬ (geometry names base cov).hrv = true := by simp [geometry, hv]
      have hm : (geometry names base cov).southLine = 1 := rfl
      rw [rowNumber, if_neg hh, hm, u64sub_of_le (a := 3712) (by omega) (by omega),
        u64sub_of_le (by omega) (by omega)]; omega
  rw [h history history' _ (by omega), hrow, Nat.mul_add_div (by omega), Nat.div_eq_of_lt hr, Nat.add_zero]
  by_cases hm : seg ∈ present
  · rw [if_pos (.inl hm), if_pos hm]
  · rw [if_neg (by simp [hm]; omega), if_neg hm]

/-- The lines of a segment that has no file are zeros, for every state of the accessor. -/
theorem C10_absent_lines_are_zero {da : DataAccess} {disk : Bytes → Outcome SegData} (seg row : Nat)
    (hs : nameOf da seg = []) (hr : row < da.seglines) (total : Nat)
    (ht : total = if da.hrv then da.maxLine else 3712) (hsouth : da.southLine = 1) (hf : total < 2 ^ 64)
    (hin : seg * da.seglines + row < total) (history : List Nat) :
    (lineRead da disk (afterLines da disk history) (total - 1 - (seg * da.seglines + row))).1
      = .ok (List.replicate da.columns 0) := by
  rw [(C08_lines_history_independent _ disk history _).1, freshLine_eq, if_neg (by omega)]
  have e : rowNumber da (total - 1 - (seg * da.seglines + row)) = da.seglines * seg + row := by
    rw [Nat.mul_comm da.seglines]
    unfold rowNumber
    split
    · rename_i hv; rw [if_pos hv] at ht
      rw [u64sub_of_le (a := da.maxLine) (by omega) (by omega), u64sub_of_le (by omega) (by omega)]; omega
    · rename_i hv; rw [if_neg hv] at ht
      rw [u64sub_of_le (a := 3712) (by omega) (by omega), hsouth, u64sub_of_le (by omega) (by omega)]; omega
  rw [e, Nat.mul_add_div (by omega), Nat.div_eq_of_lt hr, Nat.add_zero, direct, if_pos hs]
  rfl

/-- The order in which the files are found does not matter. -/
theorem C10_scan_order_independent {hdr : Bytes → Outcome SegHeader} {files : Nat → Bytes} {n : Nat}
    {base : SegHeader} (hp : ProductFiles hdr files n base) (cov : Coverage) (present present' : List Nat)
    (hpr : ∀ i ∈ present, i < n) (hne : present ≠ []) (hperm : ∀ i, i ∈ present ↔ i ∈ present')
    (disk : Bytes → Outcome SegData) (line : Nat) :
    ∃ da da', scan hdr cov (present.map files) = .ok da ∧ scan hdr cov (present'.map files) = .ok da' ∧
      freshLine da disk line = freshLine da' disk line := by
  have hne' : present' ≠ [] := by
    obtain ⟨p, hp'⟩ := List.exists_mem_of_ne_nil present hne
    exact List.ne_nil_of_mem ((hperm p).1 hp')
  obtain ⟨names, h1, h2⟩ := scan_spec hp cov present hpr hne
  obtain ⟨names', h1', h2'⟩ := scan_spec hp cov present' (fun i hi => hpr i ((hperm i).2 hi)) hne'
  refine ⟨_, _, h1, h1', ?_⟩
  rw [freshLine_eq, freshLine_eq]
  have hname : ∀ i, nameOf (geometry names base cov) i = nameOf (geometry names' base cov) i := by
    intro i
    have a := h2 i
    have b := h2' i
    simp only [nameOf, geometry]
    rw [a, b]; simp only [hperm]
  have hrow : rowNumber (geometry names' base cov) line = rowNumber (geometry names base cov) line := rfl
  have hsl : (geometry names' base cov).seglines = base.lines := rfl
  have hsl' : (geometry names base cov).seglines = base.lines := rfl
  rw [hrow, hsl, hsl', direct, direct, hname]
  rfl

/-! ### A product of four segments, three of which are on disk -/

def demoHdr (f : Bytes) : Outcome SegHeader :=
  match f with
  | [d] => .ok { format := 1, sequence := d.toNat, plannedEnd := 4, channel := 4, lines := 928, columns := 2, cfac := -5 }
  | _ => .throws "cannot open"

example : ProductFiles demoHdr (fun i => [UInt8.ofNat (i + 1)]) 4
    { format := 1, sequence := 0, plannedEnd := 4, channel := 4, lines := 928, columns := 2, cfac := -5 } := by
  refine ⟨?_, by simp, by decide⟩
  intro i hi
  have : i = 0 ∨ i = 1 ∨ i = 2 ∨ i = 3 := by omega
  rcases this with rfl | rfl | rfl | rfl <;> rfl

example : (scan demoHdr ⟨0, 0, 0, 0, 0, 0, 0, 0⟩ [[4], [1], [3]]).bind (fun da => .ok (da.segnames, da.swapX, da.lines))
    = .ok ([[1], [], [3], [4]], true, 3712) := by decide +kernel

/-- A full disk product of four segments as in C09. -/
example : FullProduct ⟨928, 2, 3712, false, true, [[1], [2], [3], [4]], ⟨0, 0, 0, 0, 0, 0, 0, 0⟩, 0, 1, 1⟩
    (fun f => .ok ⟨some (List.replicate 1856 (f.headD 0).toNat)⟩) 4 3712
    (fun i => List.replicate 1856 (i + 1)) := by
  refine ⟨?_, ?_, fun i _ => List.length_replicate, rfl, rfl, rfl, by omega⟩ <;> intro i hi
  all_goals
    have : i = 0 ∨ i = 1 ∨ i = 2 ∨ i = 3 := by omega
    rcases this with rfl | rfl | rfl | rfl
  all_goals first | rfl | decide

/-! ## C11 -/

/-- A window of the HRV reference grid (lines and columns counted from 1, from the south-east corner of
a grid of 11136 by 11136) that is `columns` wide. -/
structure ValidWindow (south north east west columns : Nat) : Prop where
  lines : 1 ≤ south ∧ south ≤ north ∧ north ≤ 11136
  cols : 1 ≤ east ∧ east ≤ west ∧ west ≤ 11136
  width : west - east + 1 = columns

/-- The windows of an epilogue: the lower one, and to the north of it the upper one, which may be absent
(all its limits are zero: rapid scan). -/
structure ValidCoverage (cov : Coverage) (columns : Nat) : Prop where
  lower : ValidWindow cov.lowerSouth cov.lowerNorth cov.lowerEast cov.lowerWest columns
  upper : (ValidWindow cov.upperSouth cov.upperNorth cov.upperEast cov.upperWest columns ∧
      cov.lowerNorth < cov.upperSouth) ∨
    (cov.upperSouth = 0 ∧ cov.upperNorth = 0 ∧ cov.upperEast = 0 ∧ cov.upperWest = 0)

/-- Each sample of a line is placed at the position of its column of the reference grid: sample `k`
from the west of a line of the lower (upper) window has grid column `west - k`, and is put at the
pixel that, counting from the east, is that column.  A row is never written outside of the 11136 pixels.
The line is numbered from the north of the product, and its number on the grid is the one that the row
read by `line_read` has, counting from 1. -/
theorem C11_placement {da : DataAccess} (hv : da.hrv = true) (hc : ValidCoverage da.cov da.columns)
    (hmax : da.maxLine = max da.cov.lowerNorth da.cov.upperNorth) (line : Nat) (hl : line < da.maxLine) :
    lineStart da line + da.columns ≤ 11136 ∧
    rowNumber da line + 1 = da.maxLine - line ∧
    (da.cov.lowerSouth ≤ da.maxLine - line → da.maxLine - line ≤ da.cov.lowerNorth → ∀ k < da.columns,
      11136 - (lineStart da line + k) = da.cov.lowerWest - k) ∧
    (da.cov.upperSouth ≤ da.maxLine - line → da.maxLine - line ≤ da.cov.upperNorth → ∀ k < da.columns,
      11136 - (lineStart da line + k) = da.cov.upperWest - k) ∧
    (¬ (da.cov.lowerSouth ≤ da.maxLine - line ∧ da.maxLine - line ≤ da.cov.lowerNorth) →
     ¬ (da.cov.upperSouth ≤ da.maxLine - line ∧ da.maxLine - line ≤ da.cov.upperNorth) →
      lineStart da line = 0) := by
  obtain ⟨⟨l1, l2, l3⟩, ⟨c1, c2, c3⟩, w⟩ := hc.lower
  have hm : da.maxLine ≤ 11136 := by
    rcases hc.upper with ⟨⟨⟨_, _, _⟩, _, _⟩, _⟩ | ⟨_, _, _, _⟩ <;> omega
  have hrow : rowNumber da line + 1 = da.maxLine - line := by
    rw [rowNumber, if_pos hv, u64sub_of_le (a := da.maxLine) (by omega) (by omega),
      u64sub_of_le (by omega) (by omega)]; omega
  have hs : lineStart da line =
      if da.maxLine - line < da.cov.lowerSouth then 0
      else if da.maxLine - line ≤ da.cov.lowerNorth then 11136 - da.cov.lowerWest
      else if da.maxLine - line < da.cov.upperSouth then 0
      else if da.maxLine - line ≤ da.cov.upperNorth then 11136 - da.cov.upperWest
      else 0 := by
    unfold lineStart
    simp only [hv, Bool.not_true, Bool.false_eq_true, if_false]
    rw [if_neg (by omega), u64sub_of_le c3 (by omega)]
    rcases hc.upper with ⟨⟨_, ⟨_, _, u⟩, _⟩, _⟩ | ⟨_, _, _, u⟩ <;> rw [u64sub_of_le (by omega) (by omega)]
  rw [hs]
  rcases hc.upper with ⟨⟨⟨u1, u2, u3⟩, ⟨v1, v2, v3⟩, w'⟩, ho⟩ | ⟨u1, u2, u3, u4⟩
  all_goals
    refine ⟨?_, hrow, ?_, ?_, ?_⟩
    · split_ifs <;> omega
    · intro h1 h2 k hk
      split_ifs <;> omega
    · intro h1 h2 k hk
      split_ifs <;> omega
    · intro h1 h2
      split_ifs <;> first | rfl | omega

/-- Lines beyond the last one of the product, and lines of the low resolution channels, start at the
first pixel. -/
theorem C11_start_elsewhere (da : DataAccess) (line : Nat) :
    (da.hrv = true → da.maxLine ≤ line → lineStart da line = 0) ∧
    (da.hrv = false → da.westColumn = 1 → lineStart da line = 0) := by
  refine ⟨fun hv hl => ?_, fun hv hw => ?_⟩
  · simp [lineStart, hv, hl]
  · simp [lineStart, hv, hw, u64sub]

/-- A nominal coverage: Africa below, Europe above and shifted to the east. -/
example : ValidCoverage ⟨1, 8064, 2825, 8392, 8065, 11136, 1500, 7067⟩ 5568 :=
  ⟨⟨by decide, by decide, by decide⟩, .inl ⟨⟨by decide, by decide, by decide⟩, by decide⟩⟩

/-! ## C12 -/

theorem store_spec (buf : List Nat) (off : Nat) (vs : List Nat) (h : off + vs.length ≤ buf.length) :
    ∃ b, store buf off vs = .ok b ∧ b.length = buf.length ∧
      ∀ x, b[x]? = if off ≤ x ∧ x < off + vs.length then vs[x - off]? else buf[x]? := by
  refine ⟨_, by rw [store, if_pos h], by simp; omega, fun x => ?_⟩
  by_cases h1 : x < off
  · rw [if_neg (by omega), List.append_assoc, List.getElem?_append_left (by simp; omega),
      List.getElem?_take, if_pos h1]
  · by_cases h2 : x < off + vs.length
    · rw [if_pos (by omega), List.append_assoc, List.getElem?_append_right (by simp; omega),
        List.getElem?_append_left (by simp; omega)]
      congr 1; simp; omega
    · rw [if_neg (by omega), List.getElem?_append_right (by simp; omega), List.getElem?_drop]
      congr 1; simp; omega

theorem store_ub (buf : List Nat) (off : Nat) (vs : List Nat) (h : ¬ off + vs.length ≤ buf.length) :
    store buf off vs = .ub := by rw [store, if_neg h]

theorem calibrateRow_spec (cal row : List Nat) (h : ∀ v ∈ row, v < cal.length) :
    ∃ vs, calibrateRow cal row = .ok vs ∧ vs.length = row.length ∧
      ∀ (k v : Nat), row[k]? = some v → ∃ b, cal[v]? = some b ∧
        vs[k]? = some (if isNeg32 b || isNaN32 b then 0 else b) := by
  induction row with
  | nil => exact ⟨[], rfl, rfl, by simp⟩
  | cons r rs ih =>
    obtain ⟨vs, h1, h2, h3⟩ := ih (fun v hv => h v (by simp [hv]))
    have hr : r < cal.length := h r (by simp)
    refine ⟨(if isNeg32 cal[r] || isNaN32 cal[r] then 0 else cal[r]) :: vs, ?_, by simp [h2], ?_⟩
    · simp [calibrateRow, calibrated, List.getElem?_eq_getElem hr, h1]
    · intro k v hk
      cases k with
      | zero =>
        simp only [List.getElem?_cons_zero, Option.some.injEq] at hk ⊢
        subst hk
        exact ⟨_, List.getElem?_eq_getElem hr, rfl⟩
      | succ k => simpa using h3 k v (by simpa using hk)

/-- The row that a raster block request delivers: zeros, except for the samples of the image line from
the pixel where the line starts. -/
def blockRow (blockX start : Nat) (samples : List Nat) (x : Nat) : Option Nat :=
  if x < blockX then
    if start ≤ x ∧ x < start + samples.length then samples[x - start]? else some 0
  else none

/-- A request for a block of a channel without calibration table: the whole row of the block is written
and nothing else, the samples at their place and zeros around them. -/
theorem C12_linear_row (da : DataAccess) (disk : Bytes → Outcome SegData) (cache : Cache) (blockX y : Nat)
    (row : List Nat) (hr : (lineRead da disk cache y).1 = .ok row)
    (hfit : lineStart da y + row.length ≤ blockX) :
    ∃ b, (readBlock da disk cache blockX none 0 y).1 = .ok (.none b) ∧ b.length = blockX ∧
      ∀ x, b[x]? = blockRow blockX (lineStart da y) row x := by
  obtain ⟨b, h1, h2, h3⟩ := store_spec (List.replicate blockX 0) (lineStart da y) row (by simpa using hfit)
  refine ⟨b, ?_, by simpa using h2, fun x => ?_⟩
  · simp [readBlock, hr, h1]
  · rw [h3 x, blockRow, List.getElem?_replicate]
    split_ifs <;> first | rfl | omega

/-- What counts as not a number. -/
theorem C12_not_a_number (b : Nat) : isNaN32 b = true ↔ NotANumber32 b := by
  unfold isNaN32 NotANumber32 exponent32 fraction32
  simp only [decide_eq_true_eq]
  omega

/-- What counts as less than zero. -/
theorem C12_negative (b : Nat) : isNeg32 b = true ↔ Negative32 b := by
  unfold isNeg32 Negative32
  rw [← C12_not_a_number]
  simp only [Bool.and_eq_true, beq_iff_eq, bne_iff_ne, ne_eq, Bool.not_eq_true', Bool.not_eq_true, sign32, exponent32, fraction32]
  constructor
  · rintro ⟨⟨h1, h2⟩, h3⟩
    exact ⟨h1, h3, by omega⟩
  · rintro ⟨h1, h2, h3⟩
    exact ⟨⟨h1, by omega⟩, h2⟩

/-- Minus one, a number that is none, and zero with a minus. -/
example : Negative32 0xbf800000 ∧ NotANumber32 0x7fc00000 ∧ ¬ Negative32 0x80000000 ∧ ¬ NotANumber32 0x7f800000 := by
  unfold Negative32 NotANumber32; decide

/-- A request for a block of a calibrated channel: the same row, each sample replaced by its entry of
the calibration table, or by zero if the entry is negative or not a number. -/
theorem C12_calibrated_row (da : DataAccess) (disk : Bytes → Outcome SegData) (cache : Cache)
    (blockX y : Nat) (cal row : List Nat) (hr : (lineRead da disk cache y).1 = .ok row)
    (hcol : da.columns ≠ 0) (hfit : lineStart da y + row.length ≤ blockX)
    (hcal : ∀ v ∈ row, v < cal.length) :
    ∃ b vals, (readBlock da disk cache blockX (some cal) 0 y).1 = .ok (.none b) ∧ b.length = blockX ∧
      vals.length = row.length ∧ (∀ x, b[x]? = blockRow blockX (lineStart da y) vals x) ∧
      (∀ (k v : Nat), row[k]? = some v → ∃ e, cal[v]? = some e ∧
        vals[k]? = some (if isNeg32 e || isNaN32 e then 0 else e)) ∧
      ∀ v ∈ b, isNeg32 v = false ∧ isNaN32 v = false := by
  obtain ⟨vals, c1, c2, c3⟩ := calibrateRow_spec cal row hcal
  obtain ⟨b, h1, h2, h3⟩ := store_spec (List.replicate blockX 0) (lineStart da y) vals
    (by simpa [c2] using hfit)
  have hx : ∀ x, b[x]? = blockRow blockX (lineStart da y) vals x := by
    intro x
    rw [h3 x, blockRow, List.getElem?_replicate]
    split_ifs <;> first | rfl | omega
  refine ⟨b, vals, ?_, by simpa using h2, c2, hx, c3, ?_⟩
  · simp [readBlock, hr, c1, h1, hcol]
  · intro v hv
    obtain ⟨x, hxv⟩ := List.getElem?_of_mem hv
    rw [hx x, blockRow] at hxv
    split_ifs at hxv with g1 g2
    · have hk : x - lineStart da y < row.length := by omega
      obtain ⟨e, _, h⟩ := c3 _ _ (List.getElem?_eq_getElem hk)
      rw [h] at hxv
      simp only [Option.some.injEq] at hxv
      subst hxv
      split
      · decide
      · rename_i hne
        simpa using hne
    · simp only [Option.some.injEq] at hxv
      subst hxv; decide

/-- Block columns other than 0 are refused, with an error, and no line is read. -/
theorem C12_other_columns_fail (da : DataAccess) (disk : Bytes → Outcome SegData) (cache : Cache)
    (blockX : Nat) (cal : Option (List Nat)) (x : Int) (hx : x ≠ 0) (y : Nat) :
    readBlock da disk cache blockX cal x y = (.ok .failure, cache) := by
  simp [readBlock, hx]

/-- Put together for a complete product: every block request, after any history of lines, delivers a
full row whose pixel at the place of column `c` of the image line is the sample of row `row` of segment
`seg` (from the east if the file is swapped), and zero outside of the line. -/
theorem C12_complete_product {da : DataAccess} {disk : Bytes → Outcome SegData} {n total : Nat}
    {imgs : Nat → List Nat} (h : FullProduct da disk n total imgs)
    (blockX : Nat) (hhrv : da.hrv = true → blockX = 11136 ∧ ValidCoverage da.cov da.columns ∧
      da.maxLine = max da.cov.lowerNorth da.cov.upperNorth)
    (hlow : da.hrv = false → da.westColumn = 1 ∧ da.columns ≤ blockX)
    (history : List Nat) (seg row : Nat) (hs : seg < n) (hr : row < da.seglines) :
    ∃ b, (readBlock da disk (afterLines da disk history) blockX none 0
        (total - 1 - (seg * da.seglines + row))).1 = .ok (.none b) ∧ b.length = blockX ∧
      (∀ c < da.columns, b[lineStart da (total - 1 - (seg * da.seglines + row)) + c]? =
        (imgs seg)[row * da.columns + (if da.swapX then da.columns - 1 - c else c)]?) ∧
      (∀ x < blockX, (x < lineStart da (total - 1 - (seg * da.seglines + row)) ∨
        lineStart da (total - 1 - (seg * da.seglines + row)) + da.columns ≤ x) → b[x]? = some 0) := by
  obtain ⟨r, h1, h2, h3⟩ := C09_line_content h history seg row hs hr
  obtain ⟨hl, -⟩ := (C09_bijection h.covers).2 seg hs row hr
  have hfit : lineStart da (total - 1 - (seg * da.seglines + row)) + r.length ≤ blockX := by
    rw [h2]
    cases hv : da.hrv with
    | true =>
      obtain ⟨e1, e2, e3⟩ := hhrv hv
      have ht := h.height
      rw [hv, if_pos rfl] at ht
      rw [e1]
      exact (C11_placement hv e2 e3 _ (by omega)).1
    | false =>
      obtain ⟨e1, e2⟩ := hlow hv
      rw [(C11_start_elsewhere da _).2 hv e1]; omega
  obtain ⟨b, g1, g2, g3⟩ := C12_linear_row da disk _ blockX _ r h1 hfit
  refine ⟨b, g1, g2, fun c hc => ?_, fun x hx ho => ?_⟩
  · rw [g3, blockRow, if_pos (by omega), if_pos (by omega), ← h3 c hc]
    congr 1; omega
  · rw [g3, blockRow, if_pos hx, if_neg (by omega)]

/-- A line that does not fit in the block is a write outside of the buffer of the caller: the windows of
the epilogue are trusted. -/
theorem C12_violated_wide_line : ∃ (da : DataAccess) (disk : Bytes → Outcome SegData),
    (readBlock da disk [] 11136 none 0 0).1 = .ub :=
  ⟨⟨1, 2, 1, true, false, [], ⟨1, 1, 1, 1, 0, 0, 0, 0⟩, 1, 1, 1⟩, fun _ => .throws "cannot open", by
    have e1 : lineRead ⟨1, 2, 1, true, false, [], ⟨1, 1, 1, 1, 0, 0, 0, 0⟩, 1, 1, 1⟩
      (fun _ => .throws "cannot open") [] 0 = (.ok [0, 0], []) := by decide +kernel
    have e2 : lineStart ⟨1, 2, 1, true, false, [], ⟨1, 1, 1, 1, 0, 0, 0, 0⟩, 1, 1, 1⟩ 0 = 11135 := by
      decide +kernel
    rw [readBlock, if_neg (by decide)]; simp only [e1, e2, store, Outcome.ok_bind]
    rw [if_neg (by rw [List.length_replicate]; decide)]; rfl⟩

end Msat.Props
