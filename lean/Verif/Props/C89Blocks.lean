import Verif.Props.C89
import Verif.Spec.RasterBlock

/-
C89 and C12 together: the blocks of a product, from the bytes of its files.
-/
namespace Msat.Props
open Msat Machine Spec Hrit HritSpec
open Msat.Xrit (SegHeader SegData Coverage DataAccess lineRead lineStart geometry readBlock isNeg32 isNaN32)
open Msat.XritSpec (sampleAt OnGrid Within)

section
variable {env : Env} {disk : Disk} {files : Nat → Bytes} {n cols lines channel planned format : Nat}
  {cfac : Int} {imgs : Nat → List Nat}

/-- The windows of HRV products. -/
def windows (channel : Nat) (cov : Option Coverage) : Option Coverage := if channel = 12 then cov else none

/-- The number of lines of the grid of a product. -/
def gridLines (hrv : Option Coverage) : Nat :=
  match hrv with
  | none => 3712
  | some c => max c.lowerNorth c.upperNorth

/-- What an entry of a calibration table becomes. -/
def notNegative (e : Nat) : Nat := if isNeg32 e || isNaN32 e then 0 else e

/-- Sample `k` from the west of row `row` of segment `seg`, as it is in the files found. -/
def fileSample (imgs : Nat → List Nat) (present : List Nat) (cols : Nat) (cfac : Int) (seg row k : Nat) : Option Nat :=
  if seg ∈ present then (imgs seg)[row * cols + (if cfac < 0 then cols - 1 - k else k)]? else some 0

theorem gridLines_eq (cov : Option Coverage) (hcov : channel = 12 → cov.isSome) :
    gridLines (windows channel cov)
      = if channel = 12 then (cov.elim 0 fun c => max c.lowerNorth c.upperNorth) else 3712 := by
  by_cases h : channel = 12
  · obtain ⟨c, rfl⟩ := Option.isSome_iff_exists.1 (hcov h)
    simp [gridLines, windows, h]
  · simp [gridLines, windows, h]

/-- The place of a line in the row of a block. -/
theorem start_spec (names : List Bytes) (h : SegHeader) (hch : h.channel = channel) (hcol : h.columns = cols)
    (cov : Option Coverage) (blockX : Nat)
    (hwidth : match windows channel cov with
      | none => cols ≤ blockX
      | some c => blockX = 11136 ∧ ValidCoverage c cols)
    (hcov : channel = 12 → cov.isSome) (g : Nat) (hg : g < gridLines (windows channel cov))
    (hon : OnGrid (windows channel cov) (g + 1)) :
    lineStart (geometry names h (cov.getD ⟨0, 0, 0, 0, 0, 0, 0, 0⟩)) (gridLines (windows channel cov) - 1 - g) + cols
        ≤ blockX ∧
    ∀ x < blockX, sampleAt (windows channel cov) cols (g + 1) x =
      if lineStart (geometry names h (cov.getD ⟨0, 0, 0, 0, 0, 0, 0, 0⟩)) (gridLines (windows channel cov) - 1 - g) ≤ x
        ∧ x < lineStart (geometry names h (cov.getD ⟨0, 0, 0, 0, 0, 0, 0, 0⟩))
            (gridLines (windows channel cov) - 1 - g) + cols
      then some (x - lineStart (geometry names h (cov.getD ⟨0, 0, 0, 0, 0, 0, 0, 0⟩))
        (gridLines (windows channel cov) - 1 - g)) else none := by
  by_cases h12 : channel = 12
  · obtain ⟨c, rfl⟩ := Option.isSome_iff_exists.1 (hcov h12)
    simp only [windows, if_pos h12, Option.getD_some, gridLines] at *
    obtain ⟨hb, hv⟩ := hwidth
    subst hb
    have := C11_placement (da := geometry names h c) (by simp [geometry, hch, h12]) (by simpa [geometry, hcol] using hv)
      rfl (max c.lowerNorth c.upperNorth - 1 - g) (by show _ < max _ _; omega)
    simp only [show (geometry names h c).columns = cols from hcol, show (geometry names h c).cov = c from rfl,
      show (geometry names h c).maxLine = max c.lowerNorth c.upperNorth from rfl] at this
    rw [show max c.lowerNorth c.upperNorth - (max c.lowerNorth c.upperNorth - 1 - g) = g + 1 by omega] at this
    generalize lineStart (geometry names h c) (max c.lowerNorth c.upperNorth - 1 - g) = s at *
    obtain ⟨t1, _, t2, t3, _⟩ := this
    refine ⟨t1, fun x hx => ?_⟩
    obtain ⟨⟨l1, l2, l3⟩, ⟨c1, c2, c3⟩, w⟩ := hv.lower
    simp only [sampleAt, OnGrid, Within] at *
    by_cases hl : c.lowerSouth ≤ g + 1 ∧ g + 1 ≤ c.lowerNorth
    · have t := t2 hl.1 hl.2 0 (by omega)
      simp only [if_pos hl]
      by_cases hx2 : s ≤ x ∧ x < s + cols
      · rw [if_pos hx2, if_pos (by omega)]; congr 1; omega
      · rw [if_neg hx2, if_neg (by omega)]
    · have hu : c.upperSouth ≤ g + 1 ∧ g + 1 ≤ c.upperNorth := hon.resolve_left hl
      rcases hv.upper with ⟨⟨⟨u1, u2, u3⟩, ⟨v1, v2, v3⟩, w'⟩, ho⟩ | ⟨u1, u2, u3, u4⟩
      · have t := t3 hu.1 hu.2 0 (by omega)
        simp only [if_neg hl]
        by_cases hx2 : s ≤ x ∧ x < s + cols
        · rw [if_pos hx2, if_pos (by omega)]; congr 1; omega
        · rw [if_neg hx2, if_neg (by omega)]
      · omega
  · simp only [windows, if_neg h12] at *
    have hs := (C11_start_elsewhere (geometry names h (cov.getD ⟨0, 0, 0, 0, 0, 0, 0, 0⟩))
      (gridLines none - 1 - g)).2 (by simp [geometry, hch, h12]) rfl
    rw [hs]
    refine ⟨by omega, fun x _ => ?_⟩
    simp [sampleAt]

/-- C89 and C12: a product whose segments are files on disk, of which those in `present` were found, in any
order. It opens, and the block of every line that has a place on the grid, after any other lines were
read, is a full row: each sample of the line that the decompression library made of the data field of the
file of its segment is at the pixel of its column, zeros are around them, and zeros are in the place of
the samples of segments not found. -/
theorem C89_blocks (h : Segments env disk files n cols lines channel planned format cfac imgs)
    (present : List Nat) (hpr : ∀ i ∈ present, i < n) (hne : present ≠ []) (cov : Option Coverage)
    (hcov : channel = 12 → cov.isSome) (hfits : gridLines (windows channel cov) < 2 ^ 64)
    (hcovers : n * lines = gridLines (windows channel cov)) (blockX : Nat)
    (hwidth : match windows channel cov with
      | none => cols ≤ blockX
      | some c => blockX = 11136 ∧ ValidCoverage c cols) :
    ∃ da, Hrit.scanFiles disk cov (present.map files) = .ok da ∧
      ∀ (history : List Nat) (seg row : Nat), seg < n → row < lines →
        OnGrid (windows channel cov) (seg * lines + row + 1) →
        (∃ b, (readBlock da (segDisk env disk) (afterLines da (segDisk env disk) history) blockX none 0
            (gridLines (windows channel cov) - 1 - (seg * lines + row))).1 = .ok (.none b) ∧ b.length = blockX ∧
          ∀ x < blockX, b[x]? = match sampleAt (windows channel cov) cols (seg * lines + row + 1) x with
            | none => some 0
            | some k => fileSample imgs present cols cfac seg row k) ∧
        (∀ table : List Nat, 0 < table.length → 0 < cols → (∀ v ∈ imgs seg, v < table.length) →
          ∃ b, (readBlock da (segDisk env disk) (afterLines da (segDisk env disk) history) blockX (some table) 0
            (gridLines (windows channel cov) - 1 - (seg * lines + row))).1 = .ok (.none b) ∧ b.length = blockX ∧
          ∀ x < blockX, b[x]? = match sampleAt (windows channel cov) cols (seg * lines + row + 1) x with
            | none => some 0
            | some k => ((fileSample imgs present cols cfac seg row k).bind fun v => table[v]?).map notNegative) := by
  obtain ⟨da, e1, hc, hl, _, hlines⟩ := C89_lines h present hpr hne cov hcov _ (gridLines_eq cov hcov) hfits hcovers
  refine ⟨da, e1, fun history seg row hs hr hon => ?_⟩
  obtain ⟨names, g1, _⟩ := scan_spec h.productFiles (cov.getD ⟨0, 0, 0, 0, 0, 0, 0, 0⟩) present hpr hne
  rw [h.scan_eq present hpr hne cov hcov] at e1
  rw [g1] at e1
  injection e1 with e1
  have hin : seg * lines + row < gridLines (windows channel cov) := ((C09_bijection hcovers).2 seg hs row hr).2
  obtain ⟨s1, s2⟩ := start_spec names
    (SegHeader.mk format 0 planned channel lines cols cfac) rfl rfl cov blockX hwidth hcov _ hin hon
  rw [e1] at s1 s2
  obtain ⟨r, r1, r2, r3⟩ := hlines history seg row hs hr
  have hfit : lineStart da (gridLines (windows channel cov) - 1 - (seg * lines + row)) + r.length ≤ blockX := by
    rw [r2]; exact s1
  generalize gridLines (windows channel cov) - 1 - (seg * lines + row) = y at *
  have hsample : ∀ k < cols, r[k]? = fileSample imgs present cols cfac seg row k := r3
  constructor
  · obtain ⟨b, b1, b2, b3⟩ := C12_linear_row da _ _ blockX y r r1 hfit
    refine ⟨b, b1, b2, fun x hx => ?_⟩
    rw [b3, blockRow, if_pos hx, s2 x hx, r2]
    by_cases hx2 : lineStart da y ≤ x ∧ x < lineStart da y + cols
    · rw [if_pos hx2, if_pos hx2]; exact hsample _ (by omega)
    · rw [if_neg hx2, if_neg hx2]
  · intro table ht hc0 hv
    obtain ⟨b, vals, b1, b2, v1, b3, v2, _⟩ := C12_calibrated_row da _ _ blockX y table r r1 (by omega) hfit (by
      intro v hm
      obtain ⟨k, hk, rfl⟩ := List.getElem_of_mem hm
      have := hsample k (r2 ▸ hk)
      rw [List.getElem?_eq_getElem hk, fileSample] at this
      by_cases hm : seg ∈ present
      · rw [if_pos hm] at this
        exact hv _ (List.mem_of_getElem? this.symm)
      · rw [if_neg hm] at this
        have := Option.some.inj this
        omega)
    refine ⟨b, b1, b2, fun x hx => ?_⟩
    rw [b3, blockRow, if_pos hx, s2 x hx, v1, r2]
    by_cases hx2 : lineStart da y ≤ x ∧ x < lineStart da y + cols
    · rw [if_pos hx2, if_pos hx2]
      have hk : x - lineStart da y < r.length := by omega
      obtain ⟨e, t1, t2⟩ := v2 _ _ (List.getElem?_eq_getElem hk)
      rw [t2]
      show _ = ((fileSample imgs present cols cfac seg row (x - lineStart da y)).bind fun v => table[v]?).map notNegative
      rw [← hsample _ (by omega), List.getElem?_eq_getElem hk, Option.bind_some, t1]
      rfl
    · rw [if_neg hx2, if_neg hx2]

end

/-- The two windows of a nominal HRV product: at line 1 the first sample is 2744 pixels from the west. -/
example : sampleAt (some ⟨1, 8064, 2825, 8392, 8065, 11136, 1500, 7067⟩) 5568 1 2744 = some 0 ∧
    sampleAt (some ⟨1, 8064, 2825, 8392, 8065, 11136, 1500, 7067⟩) 5568 8065 2744 = none ∧
    sampleAt (some ⟨1, 8064, 2825, 8392, 8065, 11136, 1500, 7067⟩) 5568 8065 4069 = some 0 ∧
    (∀ g < 11136, OnGrid (some ⟨1, 8064, 2825, 8392, 8065, 11136, 1500, 7067⟩) (g + 1)) := by
  refine ⟨by decide, by decide, by decide, fun g hg => ?_⟩
  simp only [OnGrid, Within]
  omega

/-- The product of two segments of `C89_lines`' example has the hypotheses of `C89_blocks`. -/
example : (windows 4 none).isNone ∧ 2 * 1856 = gridLines (windows 4 none) := by decide

end Msat.Props
