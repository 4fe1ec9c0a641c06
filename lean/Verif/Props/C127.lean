import Verif.Props.C125
import Verif.Props.C126

/-
C127 The order in which the segments of an xRIT product are found does not matter.
-/
namespace Msat.Props
open Msat Hrit HritSpec XritToNetcdf
open Msat.Layout Msat.XritFields
open Msat.Xrit (Coverage)
open Msat.XritSpec (sampleAt)

section
variable {env : Env} {disk : Disk} {files : Nat → Bytes} {n cols lines channel planned format : Nat}
  {cfac : Int} {imgs : Nat → List Nat}

theorem init_shape {hrv : Bool} {pro : XritDataset.Prologue} {h : XritDataset.Header} {ds : XritDataset.Dataset}
    (e : XritDataset.init hrv pro h = .ok ds) : ds.ny = (if hrv then 11136 else 3712) ∧ ds.band.blockX = if hrv then 11136 else 3712 := by
  unfold XritDataset.init at e
  cases hl : h.sublon with
  | none => rw [hl] at e; cases e
  | some lon =>
    rw [hl] at e
    obtain ⟨b, hb, e⟩ := Outcome.of_bind_ok e
    cases e
    refine ⟨rfl, ?_⟩
    unfold XritDataset.initBand at hb
    obtain ⟨⟨slope, off, linear⟩, _, hb⟩ := Outcome.of_bind_ok hb
    dsimp only at hb
    split at hb
    · obtain ⟨_, _, hb⟩ := Outcome.of_bind_ok hb
      cases hb
      rfl
    · obtain ⟨_, _, hb⟩ := Outcome.of_bind_ok hb
      obtain ⟨_, _, hb⟩ := Outcome.of_bind_ok hb
      cases hb
      rfl

theorem same_lines (h : Segments env disk files n cols lines channel planned format cfac imgs)
    (a b : List Nat) (ha : ∀ i ∈ a, i < n) (hne : a ≠ []) (hab : ∀ i, i ∈ a ↔ i ∈ b) (cov : Option Coverage)
    (hf : Full channel n cols lines cov) (table : Option (List Nat)) (look : Nat → Option Nat) (hlook : Looks imgs n cols table look) :
    ∃ da db px, Hrit.scanFiles disk cov (a.map files) = .ok da ∧ Hrit.scanFiles disk cov (b.map files) = .ok db ∧
      da.hrv = (channel == 12) ∧ db.hrv = (channel == 12) ∧
      readLines da (segDisk env disk) (side channel) table [] (List.range (side channel)) = .ok (some px) ∧
      readLines db (segDisk env disk) (side channel) table [] (List.range (side channel)) = .ok (some px) := by
  have hneb : b ≠ [] := by
    rintro rfl
    exact hne (List.eq_nil_iff_forall_not_mem.2 fun i hi => by simpa using (hab i).1 hi)
  obtain ⟨da, px, e1, e2, e3, e4, e5⟩ := lines_ok h a ha hne cov hf table look hlook
  obtain ⟨db, px', f1, f2, f3, f4, f5⟩ := lines_ok h b (fun i hi => ha i ((hab i).2 hi)) hneb cov hf table look hlook
  have hs : ∀ seg row k, fileSample imgs a cols cfac seg row k = fileSample imgs b cols cfac seg row k := by
    intro seg row k
    unfold fileSample
    by_cases hm : seg ∈ a
    · rw [if_pos hm, if_pos ((hab seg).1 hm)]
    · rw [if_neg hm, if_neg fun hb => hm ((hab seg).2 hb)]
  have hpx : px = px' := pixels_ext hf e4 f4 fun seg hseg row hrow x hx => by
    rw [e5 seg hseg row hrow x hx, f5 seg hseg row hrow x hx]
    cases sampleAt (windows channel cov) cols (seg * lines + row + 1) x with
    | none => rfl
    | some k => dsimp only; rw [hs]
  subst hpx
  exact ⟨da, db, px, e1, f1, e2, f2, e3, f3⟩

/-- Two lists of the same segments of a product, in any order and with any of them more than once, are converted to the same NetCDF file and to
the same GRIB file, or to none, whatever the prologue has. -/
theorem C127_order (h : Segments env disk files n cols lines channel planned format cfac imgs)
    (a b : List Nat) (ha : ∀ i ∈ a, i < n) (hne : a ≠ []) (hab : ∀ i, i ∈ a ↔ i ∈ b) (cov : Option Coverage)
    (hf : Full channel n cols lines cov) (table : Option (List Nat)) (look : Nat → Option Nat) (hlook : Looks imgs n cols table look)
    (pro : XritDataset.Prologue) (hd : XritDataset.Header) (scale offset : Rat) (value : Nat → Option Rat) :
    (∀ (valid : String → Bool) (single : ℝ → ℝ),
      XritToNetcdf.convert env disk cov (a.map files) pro hd scale offset table value valid single =
      XritToNetcdf.convert env disk cov (b.map files) pro hd scale offset table value valid single) ∧
    ∀ (pack : Rat → Rat) (sample : GribFile.Template → List (String × Int)) (blank : Datetime.Message) (option : Option String)
      (old : Option GribFile.Message),
      XritToGrib.convert env disk cov (a.map files) pro hd scale offset table value pack sample blank option old =
      XritToGrib.convert env disk cov (b.map files) pro hd scale offset table value pack sample blank option old := by
  obtain ⟨da, db, px, e1, e2, e3, e4, e5, e6⟩ := same_lines h a b ha hne hab cov hf table look hlook
  have hside : (if (channel == 12) = true then 11136 else 3712) = side channel := by
    unfold side
    by_cases hc : channel = 12 <;> simp [hc]
  constructor
  · intro valid single
    unfold XritToNetcdf.convert
    rw [e1, e2, Outcome.ok_bind, Outcome.ok_bind, e3, e4]
    cases hi : XritDataset.init (channel == 12) pro hd with
    | ok ds =>
      obtain ⟨s1, s2⟩ := init_shape hi
      rw [Outcome.ok_bind, Outcome.ok_bind, s1, s2, hside, e5, e6]
    | _ => rfl
  · intro pack sample blank option old
    unfold XritToGrib.convert
    rw [e1, e2, Outcome.ok_bind, Outcome.ok_bind, e3, e4]
    cases hi : XritDataset.init (channel == 12) pro hd with
    | ok ds =>
      obtain ⟨s1, s2⟩ := init_shape hi
      rw [Outcome.ok_bind, Outcome.ok_bind, s1, s2, hside, e5, e6]
    | _ => rfl

theorem last_header (h : Segments env disk files n cols lines channel planned format cfac imgs) (sscanf : Bytes → Option ℝ)
    (sc bpp : Nat) (lon more : Bytes) (hl : (41 : UInt8) ∉ lon)
    (hsame : ∀ i < n, ∃ rs data rest first comp, disk (files i) = some (fileOf 0 rs data rest) ∧ FileOk 0 rs data ∧
      segmentOf rs = some (sc, channel, i + 1, first, planned, format) ∧ structureOf rs = some (bpp, cols, lines, comp) ∧
      projectionText rs = some (str "GEOS(" ++ lon ++ (41 : UInt8) :: more))
    (a : List Nat) (ha : ∀ i ∈ a, i < n) (hne : a ≠ []) :
    lastHeader sscanf disk (a.map files) = .ok ⟨sc, channel, bpp, sscanf lon⟩ := by
  have hz : format ≠ 0 := by have := h.known; omega
  obtain ⟨before, k, rfl⟩ : ∃ before k, a = before ++ [k] := ⟨a.dropLast, a.getLast hne, (List.dropLast_concat_getLast hne).symm⟩
  obtain ⟨rs, data, rest, first, comp, s1, s2, s3, s4, s5⟩ := hsame k (ha k (by simp))
  have hmap : (before ++ [k]).map files = before.map files ++ [files k] := by simp
  rw [hmap]
  exact C123_header sscanf disk (before.map files) (segments_files h before fun i hi => ha i (by simp [hi])) (files k) rs data rest s1 s2
    sc channel (k + 1) first planned format s3 hz bpp cols lines comp s4 lon more s5 hl

/-- The same from bytes, whatever the bytes of the prologue are, when the headers of the segments agree on satellite, bits and projection. -/
theorem C127_bytes (h : Segments env disk files n cols lines channel planned format cfac imgs)
    (a b : List Nat) (ha : ∀ i ∈ a, i < n) (hne : a ≠ []) (hab : ∀ i, i ∈ a ↔ i ∈ b) (cov : Option Coverage)
    (hf : Full channel n cols lines cov) (table : Option (List Nat)) (look : Nat → Option Nat) (hlook : Looks imgs n cols table look)
    (f32 f64 : Nat → ℝ) (sscanf : Bytes → Option ℝ) (prologue : Bytes)
    (sc bpp : Nat) (lon more : Bytes) (hl : (41 : UInt8) ∉ lon)
    (hsame : ∀ i < n, ∃ rs data rest first comp, disk (files i) = some (fileOf 0 rs data rest) ∧ FileOk 0 rs data ∧
      segmentOf rs = some (sc, channel, i + 1, first, planned, format) ∧ structureOf rs = some (bpp, cols, lines, comp) ∧
      projectionText rs = some (str "GEOS(" ++ lon ++ (41 : UInt8) :: more))
    (scale offset : Rat) (value : Nat → Option Rat) :
    (∀ (valid : String → Bool) (single : ℝ → ℝ),
      XritFields.convert env disk cov (a.map files) f32 f64 sscanf prologue scale offset table value valid single =
      XritFields.convert env disk cov (b.map files) f32 f64 sscanf prologue scale offset table value valid single) ∧
    ∀ (pack : Rat → Rat) (sample : GribFile.Template → List (String × Int)) (blank : Datetime.Message) (option : Option String)
      (old : Option GribFile.Message),
      XritFieldsGrib.convert env disk cov (a.map files) f32 f64 sscanf prologue scale offset table value pack sample blank option old =
      XritFieldsGrib.convert env disk cov (b.map files) f32 f64 sscanf prologue scale offset table value pack sample blank option old := by
  have hneb : b ≠ [] := by
    rintro rfl
    exact hne (List.eq_nil_iff_forall_not_mem.2 fun i hi => by simpa using (hab i).1 hi)
  have h1 := last_header h sscanf sc bpp lon more hl hsame a ha hne
  have h2 := last_header h sscanf sc bpp lon more hl hsame b (fun i hi => ha i ((hab i).2 hi)) hneb
  constructor
  · intro valid single
    unfold XritFields.convert
    rw [h1, h2]
    cases XritFields.prologue f32 f64 prologue with
    | ok pro =>
      simp only [Outcome.ok_bind]
      exact (C127_order h a b ha hne hab cov hf table look hlook pro _ scale offset value).1 valid single
    | _ => rfl
  · intro pack sample blank option old
    unfold XritFieldsGrib.convert
    rw [h1, h2]
    cases XritFields.prologue f32 f64 prologue with
    | ok pro =>
      simp only [Outcome.ok_bind]
      exact (C127_order h a b ha hne hab cov hf table look hlook pro _ scale offset value).2 pack sample blank option old
    | _ => rfl

end

/-- The two halves of an image of channel IR_108, in either order, or the first one twice. -/
example (pro : XritDataset.Prologue) (table : List Nat) (ht : table.length = 4000) (valid : String → Bool) (single : ℝ → ℝ) :
    XritToNetcdf.convert aDecoder (fun f => if f = [1] then some (fileOf 0 (halfOf 9 0) [9, 9] [])
      else if f = [2] then some (fileOf 0 (halfOf 9 1) [9, 9] []) else none) none
      ([0, 1].map fun i => if i = 0 then [1] else [2]) pro ⟨323, 9, 10, some 0⟩ 1 0 (some table) (fun _ => some 0) valid single =
    XritToNetcdf.convert aDecoder (fun f => if f = [1] then some (fileOf 0 (halfOf 9 0) [9, 9] [])
      else if f = [2] then some (fileOf 0 (halfOf 9 1) [9, 9] []) else none) none
      ([1, 0, 0].map fun i => if i = 0 then [1] else [2]) pro ⟨323, 9, 10, some 0⟩ 1 0 (some table) (fun _ => some 0) valid single :=
  (C127_order (halves 9 (.inr rfl)) [0, 1] [1, 0, 0] (by simp) (by simp) (by simp [or_comm]) none (halves_full 9 (.inr rfl)) (some table) _
    (.table table (by omega) (by norm_num) (fun i _ v hv => by have := List.mem_range.1 hv; omega)) pro ⟨323, 9, 10, some 0⟩ 1 0
    (fun _ => some 0)).1 valid single

/-- The headers of those files agree. -/
example : ∀ i < 2, ∃ rs data rest first comp, (fun f => if f = [1] then some (fileOf 0 (halfOf 9 0) [9, 9] [])
      else if f = [2] then some (fileOf 0 (halfOf 9 1) [9, 9] []) else none) ((fun i => if i = 0 then [1] else [2]) i) =
        some (fileOf 0 rs data rest) ∧ FileOk 0 rs data ∧
      segmentOf rs = some (323, 9, i + 1, first, 2, 2) ∧ structureOf rs = some (10, 2, 1856, comp) ∧
      projectionText rs = some (str "GEOS(" ++ str "+000.0" ++ (41 : UInt8) :: List.replicate 20 32) := by
  intro i hi
  refine ⟨halfOf 9 i, [9, 9], [], 1, 1, ?_, halfOf_ok 9 i (.inr rfl) hi, rfl, rfl, ?_⟩
  · have : i = 0 ∨ i = 1 := by omega
    rcases this with rfl | rfl <;> simp
  · have : i = 0 ∨ i = 1 := by omega
    rcases this with rfl | rfl <;> decide +kernel

end Msat.Props
