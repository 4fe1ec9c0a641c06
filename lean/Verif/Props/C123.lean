import Verif.Model.XritFields
import Verif.Props.C05
import Verif.Props.C87
import Verif.Props.C122

namespace Msat.Props
open Msat
open Msat.Layout Msat.XritFields
open Msat.Hrit (Disk Env Header readFileHeader)
open Msat.HritSpec

/-! ## C123 What is taken from the bytes of the prologue and of the segments -/

theorem has_any {l : List Read} {p : Path} (h : l.any (fun r => r.path == p) = true) : ∃ r ∈ l, r.path = p := by
  obtain ⟨r, hr, he⟩ := List.any_eq_true.1 h
  exact ⟨r, hr, by simpa using he⟩

theorem has_struct (nm : String) (l : Lay) (p : Path) (hp : ∃ r ∈ l.reads 0, r.path = p) : ∀ (ms : List (String × Lay)) (b : Nat),
    (nm, l) ∈ ms → ∃ r ∈ (Lay.struct ms).reads b, r.path = .f nm :: p
  | [], _, h => by simp at h
  | (nm', l') :: ms, b, h => by
    rcases List.mem_cons.1 h with e | h
    · cases e
      obtain ⟨r, hr, he⟩ := hp
      refine ⟨(r.shift b).under [.f nm], ?_, by simp [Read.under, Read.shift, he]⟩
      rw [Lay.struct, Lay.reads, Lay.reads_zero l b]
      exact List.mem_append_left _ (List.mem_map_of_mem (List.mem_map_of_mem hr))
    · obtain ⟨r, hr, he⟩ := has_struct nm l p hp ms (b + l'.size) h
      exact ⟨r, by rw [Lay.struct, Lay.reads]; exact List.mem_append_right _ hr, he⟩

theorem calibration_here : ∀ i < 12, ∀ m ∈ ["Cal_Slope", "Cal_Offset"],
    (radiometricProcLay.reads 0).any (fun r => r.path == [.f "ImageCalibration", .i i, .f m]) = true := by decide +kernel

theorem grid_here : ∀ g ∈ ["ReferenceGridVIS_IR", "ReferenceGridHRV"], ∀ m ∈ ["ColumnDirGridStep", "LineDirGridStep"],
    (imageDescriptionLay.reads 0).any (fun r => r.path == [.f g, .f m]) = true := by decide +kernel

theorem start_here : (imageAcquisitionLay.reads 0).any (fun r => r.path == [.f "PlannedAquisitionTime", .f "TrueRepeatCycleStart"]) = true := by
  decide +kernel

theorem member_ok (ρ : Path → Val) (post : Bytes) (hr : prologueDataLay.InRange ρ) (p : Path) (hd : defective p = false)
    (hp : ∃ r ∈ prologueDataLay.reads 0, r.path = p) : member (prologueDataLay.encode ρ ++ post) p = .ok (ρ p) := by
  obtain ⟨h1, h2, _⟩ := C05_prologue_partial ρ post hr
  obtain ⟨r, hm, rfl⟩ := hp
  obtain ⟨r', hm', he⟩ := h2 r hm (by simp [hd])
  unfold member
  cases hl : ((prologueData 0).1.filter fun x => x.path == r.path).getLast? with
  | none =>
    have := List.getLast?_eq_none_iff.1 hl
    have hin : r' ∈ (prologueData 0).1.filter fun x => x.path == r.path := List.mem_filter.2 ⟨hm', by simp [he]⟩
    rw [this] at hin
    cases hin
  | some s =>
    have hin := List.mem_of_getLast? hl
    obtain ⟨hs, hp⟩ := List.mem_filter.1 hin
    have hp : s.path = r.path := by simpa using hp
    show readField s.kind _ s.off = _
    rw [h1 s hs (by rw [hp]; simp [hd]), hp]


theorem member_in (ρ : Path → Val) (post : Bytes) (hr : prologueDataLay.InRange ρ) (nm : String) (l : Lay) (p : Path)
    (hm : (nm, l) ∈ [("sat_status", satelliteStatusLay), ("image_acquisition", imageAcquisitionLay), ("celestial_events", celestialEventsLay),
      ("image_description", imageDescriptionLay), ("radiometric_proc", radiometricProcLay), ("geometric_proc", geometricProcLay)])
    (hd : defective (.f nm :: p) = false) (hp : (l.reads 0).any (fun r => r.path == p) = true) :
    member (prologueDataLay.encode ρ ++ post) (.f nm :: p) = .ok (ρ (.f nm :: p)) :=
  member_ok ρ post hr _ hd (has_struct nm l p (has_any hp) _ 0 hm)

/-- What the bytes of a prologue say of the image: the planned start of the scan, the steps of the two grids (the bits of a `float`), and the
calibration of the twelve channels (the bits of `double`s).  `ρ` gives the values of all the members of the prologue. -/
structure Fields (ρ : Path → Val) (day msec : Nat) (col line : Bool → Nat) (slope offset : Nat → Nat) : Prop where
  time : ∃ us ns, ρ [.f "image_acquisition", .f "PlannedAquisitionTime", .f "TrueRepeatCycleStart"] = .time day msec us ns
  visCol : ρ [.f "image_description", .f "ReferenceGridVIS_IR", .f "ColumnDirGridStep"] = .nat (col false)
  visLine : ρ [.f "image_description", .f "ReferenceGridVIS_IR", .f "LineDirGridStep"] = .nat (line false)
  hrvCol : ρ [.f "image_description", .f "ReferenceGridHRV", .f "ColumnDirGridStep"] = .nat (col true)
  hrvLine : ρ [.f "image_description", .f "ReferenceGridHRV", .f "LineDirGridStep"] = .nat (line true)
  slopes : ∀ i < 12, ρ [.f "radiometric_proc", .f "ImageCalibration", .i i, .f "Cal_Slope"] = .nat (slope i)
  offsets : ∀ i < 12, ρ [.f "radiometric_proc", .f "ImageCalibration", .i i, .f "Cal_Offset"] = .nat (offset i)

theorem calibration_members (f64 : Nat → ℝ) (data : Bytes) (slope offset : Nat → Nat) : ∀ is : List Nat,
    (∀ i ∈ is, bits data [.f "radiometric_proc", .f "ImageCalibration", .i i, .f "Cal_Slope"] = .ok (slope i) ∧
      bits data [.f "radiometric_proc", .f "ImageCalibration", .i i, .f "Cal_Offset"] = .ok (offset i)) →
    calibration f64 data is = .ok (is.map fun i => (f64 (slope i), f64 (offset i)))
  | [], _ => rfl
  | i :: is, h => by
    obtain ⟨h1, h2⟩ := h i (by simp)
    rw [calibration, h1, Outcome.ok_bind, h2, Outcome.ok_bind, calibration_members f64 data slope offset is fun j hj => h j (by simp [hj])]
    rfl

/-- **Partial.** A prologue in the documented layout, whatever its fields are, with anything after it: what the image takes of it are the values
of those fields.  Missing: that reading the structure as a whole is defined, which is not so (C05). -/
theorem C123_prologue_partial (f32 f64 : Nat → ℝ) (ρ : Path → Val) (post : Bytes) (hr : prologueDataLay.InRange ρ) (day msec : Nat)
    (col line : Bool → Nat) (slope offset : Nat → Nat) (h : Fields ρ day msec col line slope offset) :
    XritFields.prologue f32 f64 (prologueDataLay.encode ρ ++ post) =
      .ok { start := Time.cdsShortOf day msec, gridVisIr := (f32 (col false), f32 (line false)), gridHrv := (f32 (col true), f32 (line true)),
            calibration := (List.range 12).map fun i => (f64 (slope i), f64 (offset i)) } := by
  have hb : ∀ p v, ρ p = .nat v → member (prologueDataLay.encode ρ ++ post) p = .ok (ρ p) →
      bits (prologueDataLay.encode ρ ++ post) p = .ok v := by
    intro p v hv hm
    unfold bits
    rw [hm, hv]
    rfl
  have hg : ∀ g ∈ ["ReferenceGridVIS_IR", "ReferenceGridHRV"], ∀ m ∈ ["ColumnDirGridStep", "LineDirGridStep"], ∀ v,
      ρ [.f "image_description", .f g, .f m] = .nat v →
      bits (prologueDataLay.encode ρ ++ post) [.f "image_description", .f g, .f m] = .ok v := by
    intro g hg m hm v hv
    refine hb _ v hv (member_in ρ post hr _ imageDescriptionLay _ (by simp) ?_ (grid_here g hg m hm))
    have key : ∀ g ∈ ["ReferenceGridVIS_IR", "ReferenceGridHRV"], ∀ m ∈ ["ColumnDirGridStep", "LineDirGridStep"],
        defective [.f "image_description", .f g, .f m] = false := by decide +kernel
    exact key g hg m hm
  have hc : ∀ i < 12, ∀ m ∈ ["Cal_Slope", "Cal_Offset"], ∀ v,
      ρ [.f "radiometric_proc", .f "ImageCalibration", .i i, .f m] = .nat v →
      bits (prologueDataLay.encode ρ ++ post) [.f "radiometric_proc", .f "ImageCalibration", .i i, .f m] = .ok v := by
    intro i hi m hm v hv
    refine hb _ v hv (member_in ρ post hr _ radiometricProcLay _ (by simp) ?_ (calibration_here i hi m hm))
    have key : ∀ i < 12, ∀ m ∈ ["Cal_Slope", "Cal_Offset"],
        defective [.f "radiometric_proc", .f "ImageCalibration", .i i, .f m] = false := by decide +kernel
    exact key i hi m hm
  obtain ⟨us, ns, ht⟩ := h.time
  have hs : start (prologueDataLay.encode ρ ++ post) = .ok (Time.cdsShortOf day msec) := by
    unfold start
    rw [member_in ρ post hr "image_acquisition" imageAcquisitionLay _ (by simp) (by decide +kernel) start_here, ht]
    rfl
  have h1 : XritFields.grid f32 (prologueDataLay.encode ρ ++ post) "ReferenceGridVIS_IR" = .ok (f32 (col false), f32 (line false)) := by
    unfold XritFields.grid
    rw [hg _ (by simp) _ (by simp) _ h.visCol, Outcome.ok_bind, hg _ (by simp) _ (by simp) _ h.visLine]
    rfl
  have h2 : XritFields.grid f32 (prologueDataLay.encode ρ ++ post) "ReferenceGridHRV" = .ok (f32 (col true), f32 (line true)) := by
    unfold XritFields.grid
    rw [hg _ (by simp) _ (by simp) _ h.hrvCol, Outcome.ok_bind, hg _ (by simp) _ (by simp) _ h.hrvLine]
    rfl
  unfold XritFields.prologue
  rw [hs, Outcome.ok_bind, h1, Outcome.ok_bind, h2, Outcome.ok_bind, calibration_members f64 _ slope offset (List.range 12) fun i hi =>
    ⟨hc i (List.mem_range.1 hi) _ (by simp) _ (h.slopes i (List.mem_range.1 hi)),
      hc i (List.mem_range.1 hi) _ (by simp) _ (h.offsets i (List.mem_range.1 hi))⟩]
  rfl


/-- The name of the projection, with its parameter: that of the last navigation record of a file. -/
def projectionText : List Rec → Option Bytes :=
  lastOf fun | .navigation p _ _ _ _ => some p | _ => none

/-- The files of the segments: each can be read, and says which segment it is, in a format that can be decoded. -/
def SegmentFiles (disk : Disk) (names : List Bytes) : Prop :=
  ∀ f ∈ names, ∃ rs data rest sc ch seq first last format, disk f = some (fileOf 0 rs data rest) ∧ FileOk 0 rs data ∧
    segmentOf rs = some (sc, ch, seq, first, last, format) ∧ format ≠ 0

theorem headerOf_projection (h0 : Header) (rs : List Rec) (data : Bytes) :
    (Hrit.headerOf h0 0 rs data).imageNavigation.map (fun n => n.params)
      = ((projectionText rs).map fun p => (Hrit.projectionOf p).2).or (h0.imageNavigation.map fun n => n.params) := by
  have h := Hrit.proj_foldl (fun h => h.imageNavigation.map fun n => n.params)
    (fun | .navigation p _ _ _ _ => some (Hrit.projectionOf p).2 | _ => none)
    (by intro h r; cases r <;> simp [Hrit.applyRec]) rs
    { h0 with typecode := 0, totalHeaderLength := 16 + (rs.flatMap Rec.encode).length,
              dataFieldLength := 8 * data.length,
              filesize := 8 * data.length / 8 + (16 + (rs.flatMap Rec.encode).length) }
  refine h.trans ?_
  congr 1
  unfold projectionText lastOf
  rw [← List.getLast?_map, List.map_filterMap]
  congr 2
  funext r
  cases r <;> rfl

theorem scanHeaders_last {disk : Disk} : ∀ (names : List Bytes), SegmentFiles disk names → ∀ (f : Bytes) (rs : List Rec) (data rest : Bytes)
    (sc ch seq first last format : Nat), disk f = some (fileOf 0 rs data rest) → FileOk 0 rs data →
    segmentOf rs = some (sc, ch, seq, first, last, format) → format ≠ 0 → ∀ st : List Bytes × Header,
    ∃ found h0, Hrit.scanHeaders disk (names ++ [f]) st = .ok (found, Hrit.headerOf h0 0 rs data)
  | [], _, f, rs, data, rest, sc, ch, seq, first, last, format, hd, hf, hs, hz, (found, h0) => by
    have h2 := Hrit.headerOf_segment h0 0 rs data
    rw [hs] at h2
    simp only [Option.map_some, Option.some_or] at h2
    by_cases hq : seq = 0
    · refine ⟨found, h0, ?_⟩
      simp only [List.nil_append, Hrit.scanHeaders, readFileHeader, hd, Hrit.readHeader_file hf, Outcome.ok_bind, Outcome.pure_eq, h2, if_neg hz,
        if_pos hq]
    · refine ⟨Xrit.setName found (seq - 1) f, h0, ?_⟩
      simp only [List.nil_append, Hrit.scanHeaders, readFileHeader, hd, Hrit.readHeader_file hf, Outcome.ok_bind, Outcome.pure_eq, h2, if_neg hz,
        if_neg hq]
  | g :: gs, hall, f, rs, data, rest, sc, ch, seq, first, last, format, hd, hf, hs, hz, (found, h0) => by
    obtain ⟨rs', data', rest', sc', ch', seq', first', last', format', hd', hf', hs', hz'⟩ := hall g (by simp)
    have h2 := Hrit.headerOf_segment h0 0 rs' data'
    rw [hs'] at h2
    simp only [Option.map_some, Option.some_or] at h2
    have ih := scanHeaders_last gs (fun x hx => hall x (by simp [hx])) f rs data rest sc ch seq first last format hd hf hs hz
    by_cases hq : seq' = 0
    · obtain ⟨found', h', e⟩ := ih (found, Hrit.headerOf h0 0 rs' data')
      refine ⟨found', h', ?_⟩
      simp only [List.cons_append, Hrit.scanHeaders, readFileHeader, hd', Hrit.readHeader_file hf', Outcome.ok_bind, Outcome.pure_eq, h2, if_neg hz',
        if_pos hq, e]
    · obtain ⟨found', h', e⟩ := ih (Xrit.setName found (seq' - 1) g, Hrit.headerOf h0 0 rs' data')
      refine ⟨found', h', ?_⟩
      simp only [List.cons_append, Hrit.scanHeaders, readFileHeader, hd', Hrit.readHeader_file hf', Outcome.ok_bind, Outcome.pure_eq, h2, if_neg hz',
        if_neg hq, e]

/-- Whatever the segments before it are, what the image takes of the headers is what the records of the last file say: spacecraft and channel of its
last identification record, bits of its last structure record, and the number in the parentheses of the geostationary projection of its last
navigation record. -/
theorem C123_header (sscanf : Bytes → Option ℝ) (disk : Disk) (names : List Bytes) (hall : SegmentFiles disk names) (f : Bytes) (rs : List Rec)
    (data rest : Bytes) (hd : disk f = some (fileOf 0 rs data rest)) (hf : FileOk 0 rs data)
    (sc ch seq first last format : Nat) (hs : segmentOf rs = some (sc, ch, seq, first, last, format)) (hz : format ≠ 0)
    (bpp cols lines comp : Nat) (hi : structureOf rs = some (bpp, cols, lines, comp))
    (lon more : Bytes) (hp : projectionText rs = some (str "GEOS(" ++ lon ++ (41 : UInt8) :: more)) (hl : (41 : UInt8) ∉ lon) :
    lastHeader sscanf disk (names ++ [f]) = .ok { spacecraft := sc, channel := ch, bpp := bpp, sublon := sscanf lon } := by
  obtain ⟨found, h0, e⟩ := scanHeaders_last names hall f rs data rest sc ch seq first last format hd hf hs hz ([], .fresh)
  have h1 := Hrit.headerOf_structure h0 0 rs data
  have h2 := Hrit.headerOf_segment h0 0 rs data
  have h3 := headerOf_projection h0 rs data
  rw [hi] at h1
  rw [hs] at h2
  rw [hp] at h3
  simp only [Option.map_some, Option.some_or] at h1 h2 h3
  have hg : (Hrit.projectionOf (str "GEOS(" ++ lon ++ (41 : UInt8) :: more)).2 = [lon] := by
    have es : str "GEOS(" = [71, 69, 79, 83, 40] := by decide
    rw [es]
    simp only [Hrit.projectionOf, List.cons_append, List.nil_append, List.head?_cons, if_true, List.drop_succ_cons, List.drop_zero]
    rw [List.takeWhile_append_of_pos (by intro x hx; simp; rintro rfl; exact hl hx)]
    simp
  rw [hg] at h3
  unfold lastHeader
  rw [e]
  show header sscanf (Hrit.headerOf h0 0 rs data) = _
  cases hn : (Hrit.headerOf h0 0 rs data).imageNavigation with
  | none => rw [hn] at h3; cases h3
  | some nav =>
    rw [hn] at h3
    have hc : nav.params = [lon] := Option.some.inj h3
    simp only [header, h1, h2, hn, hc, Hrit.imageStructOf, List.head?_cons, Option.bind_some]


section
variable {env : Env} {disk : Disk} {files : Nat → Bytes} {n cols lines channel planned format : Nat}
  {cfac : Int} {imgs : Nat → List Nat}

theorem segments_files (h : Segments env disk files n cols lines channel planned format cfac imgs) (present : List Nat)
    (hpr : ∀ i ∈ present, i < n) : SegmentFiles disk (present.map files) := by
  intro f hf
  obtain ⟨i, hi, rfl⟩ := List.mem_map.1 hf
  obtain ⟨rs, data, rest, bpp, comp, sc, start, lfac, coff, loff, hd, ho, _, _, hid, _⟩ := h.file i (hpr i hi)
  refine ⟨rs, data, rest, sc, channel, i + 1, start, planned, format, hd, ho, hid, ?_⟩
  have := h.known
  omega

theorem fields_say {thermal : Bool} (h : Segments env disk files n cols lines channel planned format cfac imgs)
    (before : List Nat) (k : Nat) (hpr : ∀ i ∈ before ++ [k], i < n) (cov : Option Xrit.Coverage)
    (f32 f64 : Nat → ℝ) (ρ : Path → Val) (post : Bytes) (hr : prologueDataLay.InRange ρ) (day msec : Nat)
    (col line : Bool → Nat) (slope offset : Nat → Nat) (hfields : Fields ρ day msec col line slope offset)
    (sscanf : Bytes → Option ℝ) (rs : List Rec) (data rest : Bytes) (hdk : disk (files k) = some (fileOf 0 rs data rest)) (ho : FileOk 0 rs data)
    (sc first : Nat) (hseg : segmentOf rs = some (sc, channel, k + 1, first, planned, format))
    (bpp comp : Nat) (hi : structureOf rs = some (bpp, cols, lines, comp)) (hbpp : bpp < 31)
    (lon more : Bytes) (hproj : projectionText rs = some (str "GEOS(" ++ lon ++ (41 : UInt8) :: more)) (hl : (41 : UInt8) ∉ lon)
    (degrees : ℝ) (hdeg : sscanf lon = some degrees)
    (sat : String) (wmo : Int) (hsat : (sat, wmo, some (sc : Int)) ∈ SatSpec.satellites) (hsev : wmo ∈ SatSpec.seviri)
    (name : String) (w : Int) (hname : ((channel : Int), name, w, thermal) ∈ SatSpec.channels) (hch : 1 ≤ channel ∧ channel ≤ 12)
    (ps : ℝ) (hps : GeorefSpec.Standard ps) (hx : About ps |1000 * f32 (col (channel == 12))|) (hy : About ps |1000 * f32 (line (channel == 12))|)
    (scale offs : Rat) (table : Option (List Nat)) (value : Nat → Option Rat) (valid : String → Bool) (single : ℝ → ℝ) :
    XritFields.convert env disk cov ((before ++ [k]).map files) f32 f64 sscanf (prologueDataLay.encode ρ ++ post) scale offs table value valid single =
      XritToNetcdf.convert env disk cov ((before ++ [k]).map files)
        ⟨Time.cdsShortOf day msec, (f32 (col false), f32 (line false)), (f32 (col true), f32 (line true)),
          (List.range 12).map fun i => (f64 (slope i), f64 (offset i))⟩ ⟨sc, channel, bpp, sscanf lon⟩ scale offs table value valid single ∧
    FilesSay ⟨Time.cdsShortOf day msec, (f32 (col false), f32 (line false)), (f32 (col true), f32 (line true)),
      (List.range 12).map fun i => (f64 (slope i), f64 (offset i))⟩ ⟨sc, channel, bpp, sscanf lon⟩ channel sat wmo name w thermal degrees ps
      (f64 (slope (channel - 1))) (f64 (offset (channel - 1))) := by
  have hz : format ≠ 0 := by have := h.known; omega
  have hh := C123_header sscanf disk (before.map files) (segments_files h before fun i hi => hpr i (by simp [hi])) (files k) rs data rest hdk ho
    sc channel (k + 1) first planned format hseg hz bpp cols lines comp hi lon more hproj hl
  have hp := C123_prologue_partial f32 f64 ρ post hr day msec col line slope offset hfields
  have hmap : (before ++ [k]).map files = before.map files ++ [files k] := by simp
  constructor
  · unfold XritFields.convert
    rw [hp, Outcome.ok_bind, hmap, hh, Outcome.ok_bind]
  refine ⟨⟨by simp [hdeg], hch, by simp, hbpp⟩, rfl, hsat, hsev, hname, hdeg, hps, ?_, ?_, ?_⟩
  · by_cases h12 : channel = 12
    · simpa [h12] using hx
    · have hb : (channel == 12) = false := by simpa using h12
      rw [hb] at hx
      rw [if_neg h12]
      exact hx
  · by_cases h12 : channel = 12
    · simpa [h12] using hy
    · have hb : (channel == 12) = false := by simpa using h12
      rw [hb] at hy
      rw [if_neg h12]
      exact hy
  · rw [List.getElem?_map, List.getElem?_range (by omega)]
    rfl

/-- **Partial.** xRIT to NetCDF, solar channels, from bytes to bytes: `ρ` are the values of the members of the prologue, and segment `k` is the last
one that was found.  The NetCDF file has the date of the planned start of the scan in the prologue, the satellite of the identification record, the
longitude in the navigation record, pixels of the standard size that is about the step of the grid in the prologue, and each pixel stands for the
radiance that the slope and offset in the prologue give for the count that the decompression library made of the segment.  Missing: that reading
the prologue as a whole is defined (C05). -/
theorem C123_netcdf_partial (h : Segments env disk files n cols lines channel planned format cfac imgs)
    (before : List Nat) (k : Nat) (hpr : ∀ i ∈ before ++ [k], i < n) (cov : Option Xrit.Coverage) (hf : Full channel n cols lines cov)
    (hbits : ∀ i < n, ∀ v ∈ imgs i, v < 65536)
    (f32 f64 : Nat → ℝ) (ρ : Path → Val) (post : Bytes) (hr : prologueDataLay.InRange ρ) (day msec : Nat) (hday : day < 2 ^ 16)
    (hmsec : msec < 2 ^ 32) (col line : Bool → Nat) (slope offset : Nat → Nat) (hfields : Fields ρ day msec col line slope offset)
    (sscanf : Bytes → Option ℝ) (rs : List Rec) (data rest : Bytes) (hdk : disk (files k) = some (fileOf 0 rs data rest)) (ho : FileOk 0 rs data)
    (sc first : Nat) (hseg : segmentOf rs = some (sc, channel, k + 1, first, planned, format))
    (bpp comp : Nat) (hi : structureOf rs = some (bpp, cols, lines, comp)) (hbpp : bpp < 31)
    (lon more : Bytes) (hproj : projectionText rs = some (str "GEOS(" ++ lon ++ (41 : UInt8) :: more)) (hl : (41 : UInt8) ∉ lon)
    (degrees : ℝ) (hdeg : sscanf lon = some degrees)
    (sat : String) (wmo : Int) (hsat : (sat, wmo, some (sc : Int)) ∈ SatSpec.satellites) (hsev : wmo ∈ SatSpec.seviri)
    (name : String) (w : Int) (hname : ((channel : Int), name, w, false) ∈ SatSpec.channels) (hch : 1 ≤ channel ∧ channel ≤ 12)
    (ps : ℝ) (hps : GeorefSpec.Standard ps) (hx : About ps |1000 * f32 (col (channel == 12))|) (hy : About ps |1000 * f32 (line (channel == 12))|)
    (y m d : Nat) (hyear : 1958 ≤ y) (hv : Spec.ValidDate y m d)
    (hdate : Spec.daysBetweenYears 1958 y + Spec.daysBeforeMonth y m + (d - 1) = day + msec / 86400000)
    (scale offs : Rat) (hscale : (scale : ℝ) = f64 (slope (channel - 1))) (hoffset : (offs : ℝ) = f64 (offset (channel - 1)))
    (value : Nat → Option Rat) (valid : String → Bool) (hvalid : valid name = true) (single : ℝ → ℝ) (hlon : |single degrees| ≤ 1000) :
    ∃ f img b gt cells, XritFields.convert env disk cov ((before ++ [k]).map files) f32 f64 sscanf (prologueDataLay.encode ρ ++ post) scale offs none
        value valid single = .ok (some f) ∧
      NetcdfFile.openFile f = some img ∧ img.spacecraft = some sat ∧ img.spacecraftId = some wmo ∧
      img.datetime = DatetimeSpec.stamp y m d (msec / 3600000 % 24) (msec / 60000 % 60) 0 ∧ img.lon = single degrees ∧
      img.gt = .ok (some gt) ∧
      (∀ x y : ℝ, gt.x0 + x * gt.dx + y * gt.rx = (x - side channel / 2) * ps ∧ gt.y0 + x * gt.ry + y * gt.dy = (side channel / 2 - y) * ps) ∧
      img.bands = [b] ∧ b.name = name ∧ NetcdfBand.readBlock b.var = .ok cells ∧
      (∀ seg < n, ∀ row < lines, ∀ x < side channel, ∃ count : Nat,
        (match XritSpec.sampleAt (windows channel cov) cols (seg * lines + row + 1) x with
          | none => some 0
          | some i => fileSample imgs (before ++ [k]) cols cfac seg row i) = some count ∧
        cells[(side channel - 1 - (seg * lines + row)) * side channel + x]? = some (.bits count)) ∧
      ∃ missing, b.nodata = some missing ∧ ∀ count : Nat, SeviriSpec.reading missing b.scale b.offset count =
        if count = 0 then none else some (count * f64 (slope (channel - 1)) + f64 (offset (channel - 1))) := by
  obtain ⟨hconv, hsay⟩ := fields_say (thermal := false) h before k hpr cov f32 f64 ρ post hr day msec col line slope offset hfields sscanf rs data
    rest hdk ho sc first hseg bpp comp hi hbpp lon more hproj hl degrees hdeg sat wmo hsat hsev name w hname hch ps hps hx hy scale offs none value
    valid single
  obtain ⟨f, img, b, gt, cells, e1, e2, e3, e4, e5, e6, e7, e8, _, _, e11, e12, _, _, e15, _, e17, e18⟩ :=
    C122_solar h (before ++ [k]) hpr (by simp) cov hf hbits _ _ sat wmo name w degrees ps _ _ hsay day msec hday hmsec rfl y m d hyear hv hdate
      scale offs hscale hoffset value valid hvalid single hlon
  refine ⟨f, img, b, gt, cells, ?_, e2, e3, e4, e5, e6, e7, e8, e11, e12, e15, e17, e18⟩
  rw [hconv]
  exact e1

/-- **Partial.** xRIT to NetCDF, thermal channels, from bytes to bytes: the pixel of each sample is the temperature, rounded, whose effective radiance by
Planck's law is the slope in the prologue times the count plus the offset in the prologue, or 0 if there is none; date, satellite and longitude are
those of the files.  Missing: that reading the prologue as a whole is defined (C05). -/
theorem C123_temperature_partial (h : Segments env disk files n cols lines channel planned format cfac imgs)
    (before : List Nat) (k : Nat) (hpr : ∀ i ∈ before ++ [k], i < n) (cov : Option Xrit.Coverage) (hf : Full channel n cols lines cov)
    (hbits : ∀ i < n, ∀ v ∈ imgs i, v < 65536) (table : List Nat) (hcols : 0 < cols) (htab : 0 < table.length)
    (hcounts : ∀ i < n, ∀ v ∈ imgs i, v < table.length)
    (f32 f64 : Nat → ℝ) (ρ : Path → Val) (post : Bytes) (hr : prologueDataLay.InRange ρ) (day msec : Nat) (hday : day < 2 ^ 16)
    (hmsec : msec < 2 ^ 32) (col line : Bool → Nat) (slope offset : Nat → Nat) (hfields : Fields ρ day msec col line slope offset)
    (sscanf : Bytes → Option ℝ) (rs : List Rec) (data rest : Bytes) (hdk : disk (files k) = some (fileOf 0 rs data rest)) (ho : FileOk 0 rs data)
    (sc first : Nat) (hseg : segmentOf rs = some (sc, channel, k + 1, first, planned, format))
    (bpp comp : Nat) (hi : structureOf rs = some (bpp, cols, lines, comp)) (hbpp : bpp < 31)
    (lon more : Bytes) (hproj : projectionText rs = some (str "GEOS(" ++ lon ++ (41 : UInt8) :: more)) (hl : (41 : UInt8) ∉ lon)
    (degrees : ℝ) (hdeg : sscanf lon = some degrees)
    (sat : String) (wmo : Int) (hsat : (sat, wmo, some (sc : Int)) ∈ SatSpec.satellites) (hsev : wmo ∈ SatSpec.seviri)
    (name : String) (w : Int) (hname : ((channel : Int), name, w, true) ∈ SatSpec.channels) (hch : 1 ≤ channel ∧ channel ≤ 12)
    (ps : ℝ) (hps : GeorefSpec.Standard ps) (hx : About ps |1000 * f32 (col (channel == 12))|) (hy : About ps |1000 * f32 (line (channel == 12))|)
    (y m d : Nat) (hyear : 1958 ≤ y) (hv : Spec.ValidDate y m d)
    (hdate : Spec.daysBetweenYears 1958 y + Spec.daysBeforeMonth y m + (d - 1) = day + msec / 86400000)
    (value : Nat → Option Rat) (hzero : value 0 = some 0) (round : ℝ → Rat) (h0 : ∀ T, T ≤ 0 → round T ≤ 0) (h1 : ∀ T, 0 < T → 0 ≤ round T)
    (c : ℝ × ℝ × ℝ) (hc : SeviriSpec.constants channel = some c)
    (htable : TableOf value round c (f64 (slope (channel - 1))) (f64 (offset (channel - 1))) table)
    (valid : String → Bool) (hvalid : valid name = true) (single : ℝ → ℝ) (hlon : |single degrees| ≤ 1000) :
    ∃ f img b cells, XritFields.convert env disk cov ((before ++ [k]).map files) f32 f64 sscanf (prologueDataLay.encode ρ ++ post) 1 0 (some table)
        value valid single = .ok (some f) ∧
      NetcdfFile.openFile f = some img ∧ img.spacecraft = some sat ∧
      img.datetime = DatetimeSpec.stamp y m d (msec / 3600000 % 24) (msec / 60000 % 60) 0 ∧ img.lon = single degrees ∧
      img.bands = [b] ∧ b.name = name ∧ NetcdfBand.readBlock b.var = .ok cells ∧
      b.units = "K" ∧ b.nodata = some 0 ∧ b.scale = 1 ∧ b.offset = 0 ∧
      ∀ seg < n, ∀ row < lines, ∀ x < side channel, ∃ pixel,
        cells[(side channel - 1 - (seg * lines + row)) * side channel + x]? = some (.real (some pixel)) ∧
        match XritSpec.sampleAt (windows channel cov) cols (seg * lines + row + 1) x with
        | none => pixel = 0
        | some i => ∃ count, fileSample imgs (before ++ [k]) cols cfac seg row i = some count ∧
            (∀ T, 0 < T → SeviriSpec.effective c T = count * f64 (slope (channel - 1)) + f64 (offset (channel - 1)) → pixel = round T) ∧
            ((¬ ∃ T, 0 < T ∧ SeviriSpec.effective c T = count * f64 (slope (channel - 1)) + f64 (offset (channel - 1))) → pixel = 0) := by
  obtain ⟨hconv, hsay⟩ := fields_say (thermal := true) h before k hpr cov f32 f64 ρ post hr day msec col line slope offset hfields sscanf rs data
    rest hdk ho sc first hseg bpp comp hi hbpp lon more hproj hl degrees hdeg sat wmo hsat hsev name w hname hch ps hps hx hy 1 0 (some table) value
    valid single
  obtain ⟨f, img, b, cells, e1, e2, e3, e4, e5, e6, e7, e8, e9⟩ := C122_temperature h (before ++ [k]) hpr (by simp) cov hf hbits table hcols htab
    hcounts _ _ sat wmo name w degrees ps _ _ hsay day msec hday hmsec rfl y m d hyear hv hdate value hzero round h0 h1 c hc htable valid hvalid
    single hlon
  obtain ⟨f', img', b', _, _, g1, g2, g3, _, g5, g6, _, _, _, _, g11, g12, _⟩ := C122_thermal h (before ++ [k]) hpr (by simp) cov hf hbits table hcols
    htab hcounts _ _ sat wmo name w degrees ps _ _ hsay day msec hday hmsec rfl y m d hyear hv hdate value hzero valid hvalid single hlon
  have hff : f' = f := by rw [e1] at g1; exact (Option.some.inj (Outcome.ok.inj g1)).symm
  subst hff
  have hii : img' = img := by rw [e2] at g2; exact (Option.some.inj g2).symm
  subst hii
  have hbb : b' = b := by rw [e3] at g11; exact (List.cons.inj g11).1.symm
  subst hbb
  refine ⟨f', img', b', cells, ?_, e2, g3, g5, g6, e3, g12, e4, e5, e6, e7, e8, e9⟩
  rw [hconv]
  exact e1

end

/-! ### A case -/

/-- What is at a path of a layout. -/
def kindAt : Lay → Path → Option Kind
  | .prim k, [] => some k
  | .arr _ l, _ :: p => kindAt l p
  | .field nm l rest, .f m :: p => if m = nm then kindAt l p else kindAt rest (.f m :: p)
  | .skip _ rest, p => kindAt rest p
  | _, _ => none

/-- The names of the members of a structure. -/
def membersOf : Lay → List String
  | .field nm _ rest => nm :: membersOf rest
  | .skip _ rest => membersOf rest
  | _ => []

/-- A chain of members. -/
def isStruct : Lay → Bool
  | .field _ _ rest => isStruct rest
  | .skip _ rest => isStruct rest
  | .done => true
  | _ => false

/-- The members of each structure have different names. -/
def distinct : Lay → Bool
  | .prim _ => true
  | .arr _ l => distinct l
  | .field nm l rest => distinct l && distinct rest && isStruct rest && !(membersOf rest).contains nm
  | .skip _ rest => distinct rest
  | .done => true

theorem struct_heads : ∀ (l : Lay), isStruct l = true → ∀ b, ∀ r ∈ l.reads b, ∃ m p, r.path = .f m :: p ∧ m ∈ membersOf l
  | .prim _, h, _, _, _ => by simp [isStruct] at h
  | .arr _ _, h, _, _, _ => by simp [isStruct] at h
  | .done, _, _, r, hr => by simp [Lay.reads] at hr
  | .skip n rest, h, b, r, hr => by
    rw [Lay.reads] at hr
    exact struct_heads rest (by simpa [isStruct] using h) _ r hr
  | .field nm l rest, h, b, r, hr => by
    rw [Lay.reads] at hr
    rcases List.mem_append.1 hr with hr | hr
    · obtain ⟨r', _, rfl⟩ := List.mem_map.1 hr
      exact ⟨nm, r'.path, rfl, by simp [membersOf]⟩
    · obtain ⟨m, p, e, hm⟩ := struct_heads rest (by simpa [isStruct] using h) _ r hr
      exact ⟨m, p, e, by simp [membersOf, hm]⟩

theorem kindAt_reads : ∀ (l : Lay), distinct l = true → ∀ b, ∀ r ∈ l.reads b, kindAt l r.path = some r.kind
  | .prim k, _, b, r, hr => by
    simp only [Lay.reads, List.mem_singleton] at hr
    subst hr
    rfl
  | .arr n l, h, b, r, hr => by
    rw [Lay.reads] at hr
    obtain ⟨j, _, hr⟩ := List.mem_flatMap.1 hr
    obtain ⟨r', hr', rfl⟩ := List.mem_map.1 hr
    exact kindAt_reads l (by simpa [distinct] using h) _ r' hr'
  | .done, _, _, r, hr => by simp [Lay.reads] at hr
  | .skip n rest, h, b, r, hr => by
    rw [Lay.reads] at hr
    rw [kindAt]
    exact kindAt_reads rest (by simpa [distinct] using h) _ r hr
  | .field nm l rest, h, b, r, hr => by
    simp only [distinct, Bool.and_eq_true, Bool.not_eq_true', List.contains_eq_mem, decide_eq_false_iff_not] at h
    obtain ⟨⟨⟨h1, h2⟩, h3⟩, h4⟩ := h
    rw [Lay.reads] at hr
    rcases List.mem_append.1 hr with hr | hr
    · obtain ⟨r', hr', rfl⟩ := List.mem_map.1 hr
      show kindAt (.field nm l rest) (.f nm :: r'.path) = some r'.kind
      rw [kindAt, if_pos rfl]
      exact kindAt_reads l h1 _ r' hr'
    · obtain ⟨m, p, e, hm⟩ := struct_heads rest h3 _ r hr
      have hne : m ≠ nm := fun h => h4 (h ▸ hm)
      rw [e, kindAt, if_neg hne, ← e]
      exact kindAt_reads rest h2 _ r hr

/-- The values of the members of a prologue: the scan starts on the 24th of October 2014 at 12:00:11, and the numbers used are those given. -/
def someFields (p : Path) : Val :=
  match kindAt prologueDataLay p with
  | some .t10 => .time 20750 43211000 0 0
  | some .r4 => .nat (if p.elem (.f "ReferenceGridVIS_IR") then 0x40400d35 else 0x3f800464)
  | some .r8 => .nat (if p.elem (.f "Cal_Slope") then 0x3fc999999999999a else 0xc024cccccccccccd)
  | some k => zeroOf k
  | none => .nat 0

theorem someFields_ok : prologueDataLay.InRange someFields := by
  intro r hr
  have hk := kindAt_reads prologueDataLay (by decide +kernel) 0 r hr
  have hroom := Lay.roomy_reads prologueDataLay (by decide +kernel) 0 r hr
  unfold someFields
  rw [hk]
  cases hkind : r.kind with
  | t10 => simp [Kind.InRange]
  | r4 => dsimp only; split <;> simp [Kind.InRange]
  | r8 => dsimp only; split <;> simp [Kind.InRange]
  | mem n cap =>
    rw [hkind] at hroom
    exact ⟨by simp, by simpa [Kind.roomy] using hroom⟩
  | _ => simp [zeroOf, Kind.InRange]

theorem someFields_say : Fields someFields 20750 43211000 (fun hrv => if hrv then 0x3f800464 else 0x40400d35)
    (fun hrv => if hrv then 0x3f800464 else 0x40400d35) (fun _ => 0x3fc999999999999a) (fun _ => 0xc024cccccccccccd) := by
  refine ⟨⟨0, 0, by decide +kernel⟩, by decide +kernel, by decide +kernel, by decide +kernel, by decide +kernel, ?_, ?_⟩ <;> decide +kernel

/-- The second of two segments of an image of channel VIS006, with that prologue, is converted. -/
example : ∃ f, XritFields.convert aDecoder (fun f => if f = [1] then some (fileOf 0 (halfOf 1 0) [9, 9] [])
      else if f = [2] then some (fileOf 0 (halfOf 1 1) [9, 9] []) else none) none
    (([0] ++ [1]).map fun i => if i = 0 then [1] else [2]) (fun v => if v = 0x40400d35 then 3.000403 else 1.000134)
    (fun v => if v = 0x3fc999999999999a then 0.2 else -10.4) (fun t => if t = str "+000.0" then some 0 else none)
    (prologueDataLay.encode someFields ++ [7]) (1 / 5) (-52 / 5) none (fun _ => none) (fun _ => true) id = .ok (some f) ∧
    ∃ img, NetcdfFile.openFile f = some img ∧ img.datetime = DatetimeSpec.stamp 2014 10 24 12 0 0 ∧ img.spacecraft = some "MSG3" := by
  obtain ⟨f, img, _, _, _, e1, e2, e3, _, e5, _⟩ := C123_netcdf_partial (halves 1 (.inl rfl)) [0] 1 (by simp) none (halves_full 1 (.inl rfl))
    (fun i _ v hv => by have := List.mem_range.1 hv; omega) (fun v => if v = 0x40400d35 then 3.000403 else 1.000134)
    (fun v => if v = 0x3fc999999999999a then 0.2 else -10.4) someFields [7] someFields_ok 20750 43211000 (by norm_num) (by norm_num) _ _ _ _
    someFields_say (fun t => if t = str "+000.0" then some 0 else none) (halfOf 1 1) [9, 9] [] rfl (halfOf_ok 1 1 (.inl rfl) (by norm_num)) 323 1 rfl
    10 1 rfl (by norm_num) (str "+000.0") (List.replicate 20 32) (by decide +kernel) (by decide +kernel) 0 (by simp)
    "MSG3" 57 (by decide +kernel) (by decide +kernel) "VIS006" 6 (by decide +kernel) (by norm_num) 3000.40307617188 (.inl rfl)
    (by unfold About; simp only [Nat.reduceBEq, Bool.false_eq_true, if_false, if_true]
        rw [abs_lt, abs_of_pos (by norm_num)]; constructor <;> norm_num)
    (by unfold About; simp only [Nat.reduceBEq, Bool.false_eq_true, if_false, if_true]
        rw [abs_lt, abs_of_pos (by norm_num)]; constructor <;> norm_num)
    2014 10 24 (by norm_num) (by unfold Spec.ValidDate; decide +kernel) (by decide +kernel) (1 / 5) (-52 / 5) (by norm_num) (by norm_num)
    (fun _ => none) (fun _ => true) rfl id (by simp)
  exact ⟨f, e1, img, e2, e5, e3⟩

open Classical in
/-- An image of channel IR_108 with that prologue is converted. -/
theorem aFieldsImage : ∃ table f img, XritFields.convert aDecoder (fun f => if f = [1] then some (fileOf 0 (halfOf 9 0) [9, 9] [])
      else if f = [2] then some (fileOf 0 (halfOf 9 1) [9, 9] []) else none) none
    (([1] ++ [0]).map fun i => if i = 0 then [1] else [2]) (fun v => if v = 0x40400d35 then 3.000403 else 1.000134)
    (fun v => if v = 0x3fc999999999999a then 0.2 else -10.4) (fun t => if t = str "+000.0" then some 0 else none)
    (prologueDataLay.encode someFields ++ []) 1 0 (some table) (fun e => some (if e = 0 then 0 else 1)) (fun _ => true) id = .ok (some f) ∧
    NetcdfFile.openFile f = some img ∧ img.datetime = DatetimeSpec.stamp 2014 10 24 12 0 0 := by
  obtain ⟨table, t1, t2⟩ := aTableOf (930.659, 0.9983, 0.627) 0.2 (-10.4)
  obtain ⟨f, img, _, _, e1, e2, _, e4, _⟩ := C123_temperature_partial (halves 9 (.inr rfl)) [1] 0 (by simp) none (halves_full 9 (.inr rfl))
    (fun i _ v hv => by have := List.mem_range.1 hv; omega) table (by norm_num) (by rw [t1]; norm_num)
    (fun i _ v hv => by have := List.mem_range.1 hv; rw [t1]; omega) (fun v => if v = 0x40400d35 then 3.000403 else 1.000134)
    (fun v => if v = 0x3fc999999999999a then 0.2 else -10.4) someFields [] someFields_ok 20750 43211000 (by norm_num) (by norm_num) _ _ _ _
    someFields_say (fun t => if t = str "+000.0" then some 0 else none) (halfOf 9 0) [9, 9] [] rfl (halfOf_ok 9 0 (.inr rfl) (by norm_num)) 323 1 rfl
    10 1 rfl (by norm_num) (str "+000.0") (List.replicate 20 32) (by decide +kernel) (by decide +kernel) 0 (by simp)
    "MSG3" 57 (by decide +kernel) (by decide +kernel) "IR_108" 108 (by decide +kernel) (by norm_num) 3000.40307617188 (.inl rfl)
    (by unfold About; simp only [Nat.reduceBEq, Bool.false_eq_true, if_false, if_true]
        rw [abs_lt, abs_of_pos (by norm_num)]; constructor <;> norm_num)
    (by unfold About; simp only [Nat.reduceBEq, Bool.false_eq_true, if_false, if_true]
        rw [abs_lt, abs_of_pos (by norm_num)]; constructor <;> norm_num)
    2014 10 24 (by norm_num) (by unfold Spec.ValidDate; decide +kernel) (by decide +kernel) (fun e => some (if e = 0 then 0 else 1)) (by simp)
    (fun T => if 0 < T then 1 else 0) (fun T h => by rw [if_neg (not_lt.2 h)]) (fun T h => by rw [if_pos h]; norm_num)
    (930.659, 0.9983, 0.627) rfl (by simpa using t2) (fun _ => true) rfl id (by simp)
  exact ⟨table, f, img, e1, e2, e4⟩

/-- Discrepancy: whatever the file has, reading the prologue as a whole is undefined: 63 bytes are copied into a member of 24.  No image can be
opened by a program whose behaviour is defined. -/
theorem C123_violated_whole (data : Bytes) : ∀ x, run prologueData data 0 ≠ .ok x := by
  intro x e
  obtain ⟨r, hm, hk⟩ := prologue_overflows 0
  simp only [run] at e
  cases hv : runReads (prologueData 0).1 data with
  | ok v => exact runReads_ub (vs := v) ⟨r, hm, by rw [hk]; rfl⟩ hv
  | _ => rw [hv] at e; exact absurd e (by intro h; cases h)

end Msat.Props
