import Verif.Model.XritToNetcdf
import Verif.Props.C82
import Verif.Props.C85
import Verif.Props.C89Blocks

/-
C122 From xRIT files to NetCDF: what is opened afterwards is what the files have.
-/
namespace Msat.Props
open Msat Machine Spec Hrit HritSpec XritToNetcdf
open Msat.PixelSize (lfac_eq_cfac toInt_int pixelV_eq_pixelH)
open Msat.Xrit (SegHeader SegData Coverage DataAccess lineRead lineStart geometry readBlock)
open Msat.XritSpec (sampleAt)

/-! ### Lines -/

theorem readBlock_cache (da : DataAccess) (disk : Bytes → Outcome SegData) (history : List Nat) (blockX : Nat) (cal : Option (List Nat)) (y : Nat) :
    (readBlock da disk (afterLines da disk history) blockX cal 0 y).2 = afterLines da disk (history ++ [y]) := by
  unfold readBlock afterLines
  rw [if_neg (by simp), List.foldl_append]
  rfl

theorem imageLines_ok {da : DataAccess} {disk : Bytes → Outcome SegData} {blockX : Nat} {cal : Option (List Nat)} (Good : Nat → List Nat → Prop) :
    ∀ (ys history : List Nat), (∀ history : List Nat, ∀ y ∈ ys,
        ∃ row, (readBlock da disk (afterLines da disk history) blockX cal 0 y).1 = .ok (.none row) ∧ Good y row) →
      ∃ rows, readLines da disk blockX cal (afterLines da disk history) ys = .ok (some rows.flatten) ∧ List.Forall₂ Good ys rows
  | [], _, _ => ⟨[], rfl, .nil⟩
  | y :: ys, history, h => by
    obtain ⟨row, e, g⟩ := h history y (by simp)
    obtain ⟨rows, e2, g2⟩ := imageLines_ok Good ys (history ++ [y]) fun hist z hz => h hist z (by simp [hz])
    refine ⟨row :: rows, ?_, .cons g g2⟩
    rw [readLines, e, readBlock_cache]
    simp only [Outcome.ok_bind]
    rw [e2]
    rfl

theorem flatten_row {w : Nat} : ∀ (rows : List (List Nat)), (∀ r ∈ rows, r.length = w) →
    rows.flatten.length = rows.length * w ∧
    ∀ (y x : Nat), x < w → rows.flatten[y * w + x]? = rows[y]?.bind fun r => r[x]?
  | [], _ => ⟨by simp, by simp⟩
  | r :: rows, h => by
    have hr := h r (by simp)
    obtain ⟨i1, i2⟩ := flatten_row rows fun r' hr' => h r' (by simp [hr'])
    refine ⟨by simp only [List.flatten_cons, List.length_append, hr, i1, List.length_cons]; ring, fun y x hx => ?_⟩
    cases y with
    | zero =>
      rw [List.flatten_cons, List.getElem?_append_left (by omega)]
      simp
    | succ y =>
      rw [List.flatten_cons, List.getElem?_append_right (by rw [hr]; nlinarith), hr, List.getElem?_cons_succ,
        show (y + 1) * w + x - w = y * w + x by rw [Nat.succ_mul]; omega]
      exact i2 y x hx

/-! ### Dates -/

theorem digits_bytes : ∀ w n : Nat, (XritDataset.digitsOf w n).map (fun c => UInt8.ofNat c.toNat) = TextSpec.digits w n
  | 0, _ => rfl
  | w + 1, n => by
    have hd : ∀ k : Nat, k < 10 → UInt8.ofNat (Char.ofNat (48 + k)).toNat = UInt8.ofNat (48 + k) := by decide
    rw [XritDataset.digitsOf, List.map_append, digits_bytes w, TextSpec.digits, List.map_singleton, hd _ (Nat.mod_lt _ (by decide))]

theorem dateText_stamp (day msec : Nat) (y m d : Nat) (hy : 1958 ≤ y) (hv : Spec.ValidDate y m d)
    (hday : Spec.daysBetweenYears 1958 y + Spec.daysBeforeMonth y m + (d - 1) = day + msec / 86400000) :
    (XritDataset.dateText (Time.cdsShortOf day msec).unixtime).map (fun c => UInt8.ofNat c.toNat) =
      DatetimeSpec.stamp y m d (msec / 3600000 % 24) (msec / 60000 % 60) 0 := by
  obtain ⟨k, rfl⟩ := Nat.exists_eq_add_of_le hy
  have hg : XritDataset.gmtime (Time.cdsShortOf day msec).unixtime = (1958 + k, m, d, msec / 3600000 % 24, msec / 60000 % 60) := by
    unfold XritDataset.gmtime Time.cdsShortOf
    dsimp only
    have es : ((86400 * (day : Int) + ((msec / 1000 : Nat) : Int) + -378691200) + 378691200).toNat = 86400 * day + msec / 1000 := by omega
    rw [es]
    have e1 : (86400 * day + msec / 1000) / 86400 = Spec.daysBetweenYears 1958 (1958 + k) + (Spec.daysBeforeMonth (1958 + k) m + d - 1) := by
      have := hv.2.2.1
      omega
    rw [e1, yearOf_days k 1958 _ (dayOfYear_lt _ _ _ hv)]
    dsimp only
    rw [monthOf_days _ _ _ hv]
    dsimp only
    rw [show (86400 * day + msec / 1000) % 86400 / 3600 = msec / 3600000 % 24 by omega,
      show (86400 * day + msec / 1000) % 3600 / 60 = msec / 60000 % 60 by omega]
  unfold XritDataset.dateText
  rw [hg]
  simp only [List.map_append, digits_bytes]
  have : TextSpec.digits 2 0 = [48, 48] := by decide
  simp [DatetimeSpec.stamp, this]

theorem date_fits (day msec : Nat) (hd : day < 2 ^ 16) (hm : msec < 2 ^ 32) (y m d : Nat) (hy : 1958 ≤ y) (hv : Spec.ValidDate y m d)
    (hday : Spec.daysBetweenYears 1958 y + Spec.daysBeforeMonth y m + (d - 1) = day + msec / 86400000) :
    DatetimeSpec.Fits y m d (msec / 3600000 % 24) (msec / 60000 % 60) 0 := by
  obtain ⟨k, rfl⟩ := Nat.exists_eq_add_of_le hy
  have hk := years_days 1958 k
  obtain ⟨v1, v2, v3, v4⟩ := hv
  have hdm : Spec.daysInMonth (1958 + k) m ≤ 31 := by
    unfold Spec.daysInMonth
    split <;> first | omega | (split <;> omega)
  unfold DatetimeSpec.Fits
  omega

/-! ### Pixel sizes -/

/-- Pixel sizes that are taken for a standard one. -/
def About (ps a : ℝ) : Prop := |a - ps| < 0.001

theorem about_cfac {ps a : ℝ} (hps : GeorefSpec.Standard ps) (h : About ps a) :
    PixelSize.cfacFromPixelHSize a = PixelSize.cfacFromPixelHSize ps ∧ 0 < a := by
  unfold About at h
  obtain ⟨h1, h2⟩ := abs_lt.1 h
  rcases hps with rfl | rfl
  · constructor
    · unfold PixelSize.cfacFromPixelHSize PixelSize.sizeX
      rw [if_pos h, if_pos (by norm_num)]
    · norm_num at *; linarith
  · constructor
    · unfold PixelSize.cfacFromPixelHSize PixelSize.sizeX PixelSize.sizeXHrv
      rw [if_neg (by rw [abs_lt]; norm_num at *; intro; linarith), if_neg (by rw [abs_lt]; norm_num at *; intro; linarith), if_pos h,
        if_neg (by rw [abs_lt]; norm_num), if_neg (by rw [abs_lt]; norm_num), if_pos (by norm_num)]
    · norm_num at *; linarith

/-- NetCDF: pixel sizes near a standard one become the standard one. -/
theorem netcdf_about (single : ℝ → ℝ) (s : Georef.Source) (ps a b : ℝ) (cx cy : ℤ) (hg : GeorefSpec.OnGrid s.gt a b cx cy)
    (hh : s.height = 35785831) (hps : GeorefSpec.Standard ps) (ha : About ps a) (hb : About ps b)
    (hcx : GeorefSpec.Near cx) (hcy : GeorefSpec.Near cy) :
    ∃ f gt, Georef.exportNetcdf single s = .ok (some f) ∧ Georef.openNetcdf f = .ok gt ∧ GeorefSpec.OnGrid gt ps ps cx cy ∧
      f.longitude = single s.lon := by
  obtain ⟨ea, pa⟩ := about_cfac hps ha
  obtain ⟨eb, pb⟩ := about_cfac hps hb
  obtain ⟨n, n1, n2, n3, n4⟩ := standard_scale hps
  refine ⟨_, { x0 := -(cx : ℝ) * ps, dx := ps, rx := 0, y0 := (cy : ℝ) * ps, ry := 0, dy := -ps },
    exportNetcdf_onGrid single s a b cx cy hg hh pa pb hcx hcy, ?_, rfl, rfl⟩
  unfold Georef.openNetcdf
  dsimp only
  rw [lfac_eq_cfac, ea, eb, n1, toInt_int n (by omega) n3]
  simp only [Outcome.ok_bind]
  rw [abs_of_nonneg (by exact_mod_cast n2 : (0:ℝ) ≤ n), n4, pixelV_eq_pixelH, n4]
  simp only [Outcome.ok_bind]
  refine congrArg Outcome.ok ?_
  congr 1
  · push_cast; ring
  · push_cast; ring

/-! ### Pixels -/

section
variable {env : Env} {disk : Disk} {files : Nat → Bytes} {n cols lines channel planned format : Nat}
  {cfac : Int} {imgs : Nat → List Nat}

/-- The number of lines, and of columns, of the images: high resolution visible is channel 12. -/
def side (channel : Nat) : Nat := if channel = 12 then 11136 else 3712

/-- The segments have all the lines of the image, and, for HRV, the windows of the epilogue have a place for each of them. -/
structure Full (channel n cols lines : Nat) (cov : Option Coverage) : Prop where
  there : channel = 12 → cov.isSome
  height : gridLines (windows channel cov) = side channel
  covers : n * lines = side channel
  width : match windows channel cov with
    | none => cols ≤ 3712
    | some c => ValidCoverage c cols
  place : ∀ g < side channel, XritSpec.OnGrid (windows channel cov) (g + 1)

/-- What pixel is made of a sample. -/
inductive Looks (imgs : Nat → List Nat) (n cols : Nat) : Option (List Nat) → (Nat → Option Nat) → Prop where
  | counts : Looks imgs n cols none some
  | table (t : List Nat) (h : 0 < t.length) (hc : 0 < cols) (hv : ∀ i < n, ∀ v ∈ imgs i, v < t.length) :
      Looks imgs n cols (some t) fun v => t[v]?.map notNegative

theorem lines_ok (h : Segments env disk files n cols lines channel planned format cfac imgs)
    (present : List Nat) (hpr : ∀ i ∈ present, i < n) (hne : present ≠ []) (cov : Option Coverage) (hf : Full channel n cols lines cov)
    (table : Option (List Nat)) (look : Nat → Option Nat) (hlook : Looks imgs n cols table look) :
    ∃ da px, Hrit.scanFiles disk cov (present.map files) = .ok da ∧ da.hrv = (channel == 12) ∧
      readLines da (segDisk env disk) (side channel) table [] (List.range (side channel)) = .ok (some px) ∧
      px.length = side channel * side channel ∧
      ∀ seg < n, ∀ row < lines, ∀ x < side channel, px[(side channel - 1 - (seg * lines + row)) * side channel + x]? =
        match sampleAt (windows channel cov) cols (seg * lines + row + 1) x with
        | none => some 0
        | some k => (fileSample imgs present cols cfac seg row k).bind look := by
  have hside : side channel < 2 ^ 64 := by unfold side; split <;> norm_num
  have hpos : 0 < side channel := by unfold side; split <;> norm_num
  have hlines : 0 < lines := by
    rcases Nat.eq_zero_or_pos lines with h0 | h0
    · have := hf.covers; rw [h0] at this; omega
    · exact h0
  obtain ⟨da, e1, hb⟩ := C89_blocks h present hpr hne cov hf.there (by rw [hf.height]; exact hside) (by rw [hf.height]; exact hf.covers)
    (side channel) (by
      have hw := hf.width
      by_cases h12 : channel = 12
      · obtain ⟨c, rfl⟩ := Option.isSome_iff_exists.1 (hf.there h12)
        simp only [windows, if_pos h12] at hw ⊢
        exact ⟨by simp [side, h12], hw⟩
      · simp only [windows, if_neg h12] at hw ⊢
        simpa [side, h12] using hw)
  rw [hf.height] at hb
  have hhrv : da.hrv = (channel == 12) := by
    obtain ⟨names, g1, _⟩ := scan_spec h.productFiles (cov.getD ⟨0, 0, 0, 0, 0, 0, 0, 0⟩) present hpr hne
    have e2 := e1
    rw [h.scan_eq present hpr hne cov hf.there, g1] at e2
    injection e2 with e2
    rw [← e2]
    rfl
  let Good : Nat → List Nat → Prop := fun y row => row.length = side channel ∧ ∀ x < side channel, row[x]? =
    match sampleAt (windows channel cov) cols (side channel - 1 - y + 1) x with
    | none => some 0
    | some k => (fileSample imgs present cols cfac ((side channel - 1 - y) / lines) ((side channel - 1 - y) % lines) k).bind look
  obtain ⟨rows, r1, r2⟩ := imageLines_ok (da := da) (disk := segDisk env disk) (blockX := side channel) (cal := table) Good
    (List.range (side channel)) [] (by
      intro history y hy
      rw [List.mem_range] at hy
      have hseg : (side channel - 1 - y) / lines < n := by
        rw [Nat.div_lt_iff_lt_mul hlines, hf.covers]; omega
      have hrow := Nat.mod_lt (side channel - 1 - y) hlines
      have hsum : (side channel - 1 - y) / lines * lines + (side channel - 1 - y) % lines = side channel - 1 - y := Nat.div_add_mod' _ _
      obtain ⟨b1, b2⟩ := hb history _ _ hseg hrow (by rw [hsum]; exact hf.place _ (by omega))
      rw [hsum, show side channel - 1 - (side channel - 1 - y) = y by omega] at b1 b2
      cases hlook with
      | counts =>
        obtain ⟨b, c1, c2, c3⟩ := b1
        refine ⟨b, c1, c2, fun x hx => ?_⟩
        rw [c3 x hx]
        cases sampleAt (windows channel cov) cols (side channel - 1 - y + 1) x <;> simp
      | table t ht hc hv =>
        obtain ⟨b, c1, c2, c3⟩ := b2 t ht hc (hv _ hseg)
        refine ⟨b, c1, c2, fun x hx => ?_⟩
        rw [c3 x hx]
        cases sampleAt (windows channel cov) cols (side channel - 1 - y + 1) x with
        | none => rfl
        | some k =>
          dsimp only
          cases fileSample imgs present cols cfac ((side channel - 1 - y) / lines) ((side channel - 1 - y) % lines) k <;> rfl)
  have hlen : ∀ r ∈ rows, r.length = side channel := by
    intro r hr
    obtain ⟨i, hi, rfl⟩ := List.getElem_of_mem hr
    exact (List.forall₂_iff_get.1 r2).2 i (by rw [r2.length_eq]; exact hi) hi |>.1
  obtain ⟨f1, f2⟩ := flatten_row rows hlen
  have hrows : rows.length = side channel := by rw [← r2.length_eq, List.length_range]
  refine ⟨da, rows.flatten, e1, hhrv, r1, by rw [f1, hrows], fun seg hs row hr x hx => ?_⟩
  have hin : seg * lines + row < side channel := by
    rw [← hf.covers]
    calc seg * lines + row < seg * lines + lines := by omega
      _ = (seg + 1) * lines := by ring
      _ ≤ n * lines := Nat.mul_le_mul_right _ hs
  rw [f2 _ _ hx]
  have hy : side channel - 1 - (seg * lines + row) < rows.length := by omega
  rw [List.getElem?_eq_getElem hy, Option.bind_some]
  have hg := (List.forall₂_iff_get.1 r2).2 _ (by rw [r2.length_eq]; exact hy) hy
  simp only [List.get_eq_getElem, List.getElem_range] at hg
  rw [hg.2 x hx, show side channel - 1 - (side channel - 1 - (seg * lines + row)) = seg * lines + row by omega]
  have d1 : (seg * lines + row) / lines = seg := by
    rw [Nat.mul_comm, Nat.mul_add_div hlines, Nat.div_eq_of_lt hr, Nat.add_zero]
  have d2 : (seg * lines + row) % lines = row := by
    rw [Nat.mul_comm, Nat.mul_add_mod, Nat.mod_eq_of_lt hr]
  rw [d1, d2]

/-- All the pixels are zeros or made of samples. -/
theorem pixels_all (hf : Full channel n cols lines cov) {px : List Nat} {present : List Nat} {look : Nat → Option Nat} (P : Nat → Prop)
    (hlen : px.length = side channel * side channel)
    (hpx : ∀ seg < n, ∀ row < lines, ∀ x < side channel, px[(side channel - 1 - (seg * lines + row)) * side channel + x]? =
        match sampleAt (windows channel cov) cols (seg * lines + row + 1) x with
        | none => some 0
        | some k => (fileSample imgs present cols cfac seg row k).bind look)
    (h0 : P 0) (hlook0 : ∀ w, look 0 = some w → P w) (hlook : ∀ i < n, ∀ v ∈ imgs i, ∀ w, look v = some w → P w) : ∀ v ∈ px, P v := by
  intro v hv
  obtain ⟨i, hi, rfl⟩ := List.getElem_of_mem hv
  have hpos : 0 < side channel := by unfold side; split <;> norm_num
  have hlines : 0 < lines := by
    rcases Nat.eq_zero_or_pos lines with h0 | h0
    · have := hf.covers; rw [h0] at this; omega
    · exact h0
  have hy : i / side channel < side channel := by rw [Nat.div_lt_iff_lt_mul hpos, ← hlen]; exact hi
  have hx := Nat.mod_lt i hpos
  have hseg : (side channel - 1 - i / side channel) / lines < n := by
    rw [Nat.div_lt_iff_lt_mul hlines, hf.covers]
    exact lt_of_le_of_lt (Nat.sub_le _ _) (Nat.sub_lt hpos one_pos)
  have hsum : (side channel - 1 - i / side channel) / lines * lines + (side channel - 1 - i / side channel) % lines =
    side channel - 1 - i / side channel := Nat.div_add_mod' _ _
  have := hpx _ hseg ((side channel - 1 - i / side channel) % lines) (Nat.mod_lt _ hlines) (i % side channel) hx
  rw [hsum, Nat.sub_sub_self (Nat.le_sub_one_of_lt hy), Nat.div_add_mod',
    List.getElem?_eq_getElem hi] at this
  split at this
  · rw [Option.some.inj this]; exact h0
  · unfold fileSample at this
    split at this
    · obtain ⟨c, c1, c2⟩ := Option.bind_eq_some_iff.1 this.symm
      exact hlook _ hseg c (List.mem_of_getElem? c1) _ c2
    · exact hlook0 _ this.symm

/-! ### From the files of the product to the image that is opened -/

/-- What the files of the product say that the image is: Meteosat `sat`, with number `wmo` and the instrument SEVIRI; channel `name`, that is
thermal or not, with slope `s` and offset `o`; the longitude of the satellite; pixels of size `ps` or about that. -/
structure FilesSay (pro : XritDataset.Prologue) (hd : XritDataset.Header) (channel : Nat) (sat : String) (wmo : Int) (name : String) (w : Int)
    (thermal : Bool) (lon ps s o : ℝ) : Prop where
  readable : Readable pro hd
  ofChannel : hd.channel = channel
  satellite : (sat, wmo, some (hd.spacecraft : Int)) ∈ SatSpec.satellites
  seviri : wmo ∈ SatSpec.seviri
  named : ((channel : Int), name, w, thermal) ∈ SatSpec.channels
  below : hd.sublon = some lon
  standard : GeorefSpec.Standard ps
  sizeX : About ps |1000 * (if channel = 12 then pro.gridHrv else pro.gridVisIr).1|
  sizeY : About ps |1000 * (if channel = 12 then pro.gridHrv else pro.gridVisIr).2|
  calibration : pro.calibration[channel - 1]? = some (s, o)

theorem matrix_onGrid (hrv : Bool) (pro : XritDataset.Prologue) :
    GeorefSpec.OnGrid (matrix (XritDataset.geotransformOf hrv pro)) |1000 * (if hrv then pro.gridHrv else pro.gridVisIr).1|
      |1000 * (if hrv then pro.gridHrv else pro.gridVisIr).2| (if hrv then 5568 else 1856) (if hrv then 5568 else 1856) := by
  unfold GeorefSpec.OnGrid matrix XritDataset.geotransformOf
  cases hrv <;> simp

theorem name_not_time {c : Int} {name : String} {w : Int} {t : Bool} (h : (c, name, w, t) ∈ SatSpec.channels) : name ≠ "time" := by
  have key : ∀ e ∈ SatSpec.channels, e.2.1 ≠ "time" := by decide +kernel
  exact key _ h

theorem converted (h : Segments env disk files n cols lines channel planned format cfac imgs)
    (present : List Nat) (hpr : ∀ i ∈ present, i < n) (hne : present ≠ []) (cov : Option Coverage) (hf : Full channel n cols lines cov)
    (hbits : ∀ i < n, ∀ v ∈ imgs i, v < 65536) (table : Option (List Nat)) (look : Nat → Option Nat) (hlook : Looks imgs n cols table look)
    (pro : XritDataset.Prologue) (hd : XritDataset.Header) (sat : String) (wmo : Int) (name : String) (w : Int) (thermal : Bool) (lon ps s o : ℝ)
    (hsay : FilesSay pro hd channel sat wmo name w thermal lon ps s o) (hth : thermal = false → look = some)
    (day msec : Nat) (hday : day < 2 ^ 16) (hmsec : msec < 2 ^ 32) (hstart : pro.start = Time.cdsShortOf day msec)
    (y m d : Nat) (hy : 1958 ≤ y) (hv : ValidDate y m d)
    (hdate : daysBetweenYears 1958 y + daysBeforeMonth y m + (d - 1) = day + msec / 86400000)
    (scale offset : Rat) (value : Nat → Option Rat) (valid : String → Bool) (hvalid : valid name = true)
    (single : ℝ → ℝ) (hlon : |single lon| ≤ 1000) :
    ∃ f img b gt cells, convert env disk cov (present.map files) pro hd scale offset table value valid single = .ok (some f) ∧
      NetcdfFile.openFile f = some img ∧ img.spacecraft = some sat ∧ img.spacecraftId = some wmo ∧
      img.datetime = DatetimeSpec.stamp y m d (msec / 3600000 % 24) (msec / 60000 % 60) 0 ∧ img.lon = single lon ∧
      img.gt = .ok (some gt) ∧ GeorefSpec.OnGrid gt ps ps (side channel / 2 : ℕ) (side channel / 2 : ℕ) ∧
      img.nx = side channel ∧ img.ny = side channel ∧ img.bands = [b] ∧ b.name = name ∧ b.channel = some (channel, name) ∧
      b.nodata = some 0 ∧ b.scale = scale ∧ b.offset = offset ∧ (b.units = "K" ↔ thermal = true) ∧
      b.type = (if thermal then .float32 else .uint16) ∧
      NetcdfBand.readBlock b.var = .ok cells ∧ cells.length = side channel * side channel ∧
      ∀ seg < n, ∀ row < lines, ∀ x < side channel, cells[(side channel - 1 - (seg * lines + row)) * side channel + x]? =
        (match sampleAt (windows channel cov) cols (seg * lines + row + 1) x with
        | none => some 0
        | some k => (fileSample imgs present cols cfac seg row k).bind look).map (cell (!thermal) value) := by
  obtain ⟨da, px, e1, ehrv, e2, hlen, hpx⟩ := lines_ok h present hpr hne cov hf table look hlook
  obtain ⟨ds, d1, d2, d3, d4, d5, d6, d7, d8, d9, d10, d11, d12⟩ := C82_description (channel == 12) pro hd hsay.readable sat wmo hsay.satellite
    hsay.seviri name w thermal (by rw [hsay.ofChannel]; exact hsay.named)
  obtain ⟨lon', b', i1, _, i3⟩ := init_ok (channel == 12) pro hd hsay.readable
  have hds := d1.symm.trans i3
  injection hds with hds
  have hgt : ds.geotransform = XritDataset.geotransformOf (channel == 12) pro := by rw [hds]
  have hdt : ds.datetime = XritDataset.dateText pro.start.unixtime := by rw [hds]
  have hsl : ds.sublon = lon := by
    rw [hsay.below] at d6
    exact (Option.some.inj d6).symm
  have hnx : ds.nx = side channel := by rw [d2]; unfold side; by_cases hc : channel = 12 <;> simp [hc]
  have hlin : ds.band.linear = !thermal := by
    cases ht : thermal <;> cases hl : ds.band.linear <;> simp_all
  have hgrid := matrix_onGrid (channel == 12) pro
  rw [← hgt] at hgrid
  have hwhich : (if (channel == 12) = true then pro.gridHrv else pro.gridVisIr) = if channel = 12 then pro.gridHrv else pro.gridVisIr := by
    by_cases hc : channel = 12 <;> simp [hc]
  have hhalf : (if (channel == 12) = true then (5568 : ℤ) else 1856) = ((side channel / 2 : ℕ) : ℤ) := by
    unfold side
    by_cases hc : channel = 12 <;> simp [hc]
  rw [hwhich, hhalf] at hgrid
  have hnear : GeorefSpec.Near ((side channel / 2 : ℕ) : ℤ) := by
    rw [← hhalf]
    unfold GeorefSpec.Near
    split <;> omega
  obtain ⟨g, gt, g1, g2, g3, g4⟩ := netcdf_about single ⟨matrix ds.geotransform, Georef.orbitRadiusForGdal, ds.sublon, ds.spacecraftId⟩ ps _ _ _ _
    hgrid rfl hsay.standard hsay.sizeX hsay.sizeY hnear hnear
  have hs := hsay.satellite
  have hname : ds.band.channel = name := d8
  obtain ⟨vs, w1, w2⟩ := create_geostationary (valid := valid) (single := single) (src := source ds scale offset value px) (s := _) rfl g1
    (by rw [g4]; show |single ds.sublon| ≤ 1000; rw [hsl]; exact hlon)
    (by
      intro b hb
      simp only [source, List.mem_singleton] at hb
      subst hb
      refine ⟨by rw [hname]; exact hvalid, ?_, ?_⟩
      · dsimp only
        rw [hlin]
        cases thermal <;> simp [NetcdfBandSpec.Plain]
      · dsimp only
        rw [hlin]
        cases thermal
        · exact ⟨0, by simp, by decide, by decide⟩
        · trivial)
    (by simp [source])
    (by
      intro b hb
      simp only [source, List.mem_singleton] at hb
      subst hb
      dsimp only
      rw [hname]
      exact name_not_time hsay.named)
  have hspace : Facts.spacecraftID sat = wmo := (C14_id_of_name sat wmo).2 (.inl ⟨_, hs⟩)
  have hfil : (NetcdfFile.Var.other "time" [1] :: vs).filter (NetcdfFile.isBand ["time"]) = vs := by
    rw [List.filter_cons_of_neg (by decide)]
    refine NetcdfFileLemmas.filter_written w2 fun b hb => ?_
    simp only [source, List.mem_singleton] at hb
    subst hb
    simpa [hname] using name_not_time hsay.named
  obtain ⟨img, o1, o2, o3, o4, o5, _, o7, o8, o9⟩ := openFile_eq
    (f := ⟨(source ds scale offset value px).spacecraft, (source ds scale offset value px).datetime.map Datetime.netcdfTime, some g,
      some NetcdfFile.packageVersion, NetcdfFile.Var.other "time" [1] :: vs⟩)
    (sat := sat) (t := DatetimeSpec.stamp y m d (msec / 3600000 % 24) (msec / 60000 % 60) 0) (by simp [source, d5]) (by
      have : (source ds scale offset value px).datetime = some (DatetimeSpec.stamp y m d (msec / 3600000 % 24) (msec / 60000 % 60) 0) := by
        simp only [source, hdt, hstart]
        rw [dateText_stamp day msec y m d hy hv hdate]
      dsimp only
      rw [this]
      exact C67_round_trip _ _ _ _ _ _ (date_fits day msec hday hmsec y m d hy hv hdate))
  dsimp only at o5 o7 o8 o9
  rw [hfil, NetcdfFileLemmas.sizeFrom_written w2 (by simp [source]), Prod.mk.injEq] at o8
  rw [nonempty_name hs, if_neg (by decide)] at o2 o3
  rw [hspace] at o3
  have hbands := bands_same wmo w2
  have o9' : img.bands = vs.map (NetcdfFile.openBand wmo) := by
    rw [o9, hfil, o3]
    simp only [fixOffset_version, Option.getD_some]
  rw [← o9'] at hbands
  simp only [source] at hbands
  obtain ⟨b, l, hb, hl, hbl⟩ := List.forall₂_cons_left_iff.1 hbands
  rw [List.forall₂_nil_left_iff] at hl
  subst hl
  obtain ⟨⟨p1, p2, p3, p4, p5, p6, p7, p8⟩, p9⟩ := hb
  dsimp only at p1 p2 p3 p4 p5 p6 p7 p8
  have hcell : ∀ c ∈ px.map (cell ds.band.linear value), NetcdfBandSpec.HasType (if ds.band.linear = true then .uint16 else .float32) c := by
    rw [hlin]
    cases ht : thermal
    · have hlk := hth ht
      subst hlk
      have := pixels_all hf (fun v => v < 65536) hlen hpx (by norm_num)
        (fun v hv => by rw [← Option.some.inj hv]; norm_num) (fun i hi v hv w hw => by rw [← Option.some.inj hw]; exact hbits i hi v hv)
      intro c hc
      obtain ⟨v, hv, rfl⟩ := List.mem_map.1 hc
      have hv := this v hv
      simp only [cell, Bool.not_false, if_true, NetcdfBandSpec.HasType, NetcdfBandSpec.range]
      omega
    · intro c hc
      obtain ⟨v, hv, rfl⟩ := List.mem_map.1 hc
      simp [cell, NetcdfBandSpec.HasType, NetcdfBandSpec.range]
  have hread : NetcdfBand.readBlock b.var = .ok (px.map (cell ds.band.linear value)) :=
    p9 (by dsimp only; split <;> simp) hcell
  refine ⟨_, img, b, gt, px.map (cell ds.band.linear value), ?_, o1, o2, o3, o4, ?_, o7 g _ rfl g2, g3, ?_, ?_, hbl, ?_, ?_, p3, p4, p5, ?_, ?_,
    hread, by rw [List.length_map, hlen], ?_⟩
  · unfold convert
    rw [e1]
    simp only [Outcome.ok_bind]
    rw [ehrv, d1]
    simp only [Outcome.ok_bind]
    rw [d11, d3, hnx, e2]
    simp only [Outcome.ok_bind]
    exact w1
  · rw [o5]
    simpa [hsl] using g4
  · rw [o8.1]; exact hnx
  · rw [o8.2]; exact d3.trans hnx
  · rw [p1, hname]
  · exact p8 channel name w thermal (by rw [d7, hsay.ofChannel]) hsay.named hsay.seviri
  · rw [p6]; exact d10
  · rw [p2, hlin]; cases thermal <;> rfl
  · intro seg hs row hr x hx
    rw [List.getElem?_map, hpx seg hs row hr x hx, hlin]

/-- Where pixels are. -/
theorem gt_position {gt : Georef.Gt} {ps : ℝ} (h : GeorefSpec.OnGrid gt ps ps (side channel / 2 : ℕ) (side channel / 2 : ℕ)) (x y : ℝ) :
    gt.x0 + x * gt.dx + y * gt.rx = (x - side channel / 2) * ps ∧ gt.y0 + x * gt.ry + y * gt.dy = (side channel / 2 - y) * ps := by
  have hh : (((side channel / 2 : ℕ) : ℤ) : ℝ) = (side channel : ℝ) / 2 := by
    unfold side
    split <;> norm_num
  unfold GeorefSpec.OnGrid at h
  rw [hh] at h
  rw [h]
  constructor <;> ring

/-- xRIT to NetCDF, solar channels: the segments of a product that were found, in any order, are converted.  The NetCDF file that is made is
opened: satellite and its number, date and time to the minute, longitude of the satellite, size, name and number of the channel are those of
the files of the product; the middle of the image is the point below the satellite, with pixels of the standard size; and the pixel of each
sample of each segment is the count that the decompression library made of the file, 0 where there is none, and stands for the radiance that
the calibration in the prologue gives. -/
theorem C122_solar (h : Segments env disk files n cols lines channel planned format cfac imgs)
    (present : List Nat) (hpr : ∀ i ∈ present, i < n) (hne : present ≠ []) (cov : Option Coverage) (hf : Full channel n cols lines cov)
    (hbits : ∀ i < n, ∀ v ∈ imgs i, v < 65536)
    (pro : XritDataset.Prologue) (hd : XritDataset.Header) (sat : String) (wmo : Int) (name : String) (w : Int) (lon ps s o : ℝ)
    (hsay : FilesSay pro hd channel sat wmo name w false lon ps s o)
    (day msec : Nat) (hday : day < 2 ^ 16) (hmsec : msec < 2 ^ 32) (hstart : pro.start = Time.cdsShortOf day msec)
    (y m d : Nat) (hy : 1958 ≤ y) (hv : ValidDate y m d)
    (hdate : daysBetweenYears 1958 y + daysBeforeMonth y m + (d - 1) = day + msec / 86400000)
    (scale offset : Rat) (hscale : (scale : ℝ) = s) (hoffset : (offset : ℝ) = o) (value : Nat → Option Rat)
    (valid : String → Bool) (hvalid : valid name = true) (single : ℝ → ℝ) (hlon : |single lon| ≤ 1000) :
    ∃ f img b gt cells, convert env disk cov (present.map files) pro hd scale offset none value valid single = .ok (some f) ∧
      NetcdfFile.openFile f = some img ∧ img.spacecraft = some sat ∧ img.spacecraftId = some wmo ∧
      img.datetime = DatetimeSpec.stamp y m d (msec / 3600000 % 24) (msec / 60000 % 60) 0 ∧ img.lon = single lon ∧
      img.gt = .ok (some gt) ∧
      (∀ x y : ℝ, gt.x0 + x * gt.dx + y * gt.rx = (x - side channel / 2) * ps ∧ gt.y0 + x * gt.ry + y * gt.dy = (side channel / 2 - y) * ps) ∧
      img.nx = side channel ∧ img.ny = side channel ∧ img.bands = [b] ∧ b.name = name ∧ b.channel = some (channel, name) ∧ b.units ≠ "K" ∧
      NetcdfBand.readBlock b.var = .ok cells ∧ cells.length = side channel * side channel ∧
      (∀ seg < n, ∀ row < lines, ∀ x < side channel, ∃ count : Nat,
        (match sampleAt (windows channel cov) cols (seg * lines + row + 1) x with
          | none => some 0
          | some k => fileSample imgs present cols cfac seg row k) = some count ∧
        cells[(side channel - 1 - (seg * lines + row)) * side channel + x]? = some (.bits count)) ∧
      ∃ missing, b.nodata = some missing ∧
        ∀ count : Nat, SeviriSpec.reading missing b.scale b.offset count = if count = 0 then none else some (count * s + o) := by
  obtain ⟨f, img, b, gt, cells, e1, e2, e3, e4, e5, e6, e7, e8, e9, e10, e11, e12, e13, e14, e15, e16, e17, _, e19, e20, e21⟩ :=
    converted h present hpr hne cov hf hbits none some .counts pro hd sat wmo name w false lon ps s o hsay (fun _ => rfl) day msec hday hmsec
      hstart y m d hy hv hdate scale offset value valid hvalid single hlon
  refine ⟨f, img, b, gt, cells, e1, e2, e3, e4, e5, e6, e7, gt_position e8, e9, e10, e11, e12, e13, ?_, e19, e20, ?_, 0, e14, ?_⟩
  · intro hk
    exact absurd (e17.1 hk) (by decide)
  · intro seg hs row hr x hx
    have hlt : (side channel - 1 - (seg * lines + row)) * side channel + x < cells.length := by
      rw [e20]
      have hpos : 0 < side channel := by unfold side; split <;> norm_num
      have : side channel - 1 - (seg * lines + row) + 1 ≤ side channel := by omega
      calc _ < (side channel - 1 - (seg * lines + row)) * side channel + side channel := by omega
        _ = (side channel - 1 - (seg * lines + row) + 1) * side channel := by ring
        _ ≤ _ := Nat.mul_le_mul_right _ this
    have he := e21 seg hs row hr x hx
    rw [List.getElem?_eq_getElem hlt] at he ⊢
    obtain ⟨c, c1, c2⟩ := Option.map_eq_some_iff.1 he.symm
    refine ⟨c, ?_, by rw [← c2]; rfl⟩
    rw [← c1]
    cases sampleAt (windows channel cov) cols (seg * lines + row + 1) x <;> simp
  · intro count
    rw [e15, e16, hscale, hoffset]
    unfold SeviriSpec.reading
    by_cases h0 : count = 0
    · subst h0; simp
    · rw [if_neg h0, if_neg (by exact_mod_cast h0)]

/-- xRIT to NetCDF, thermal channels: the same, where the pixel of a sample is the entry of the calibration table for its count, or 0 if that
is negative or not a number. -/
theorem C122_thermal (h : Segments env disk files n cols lines channel planned format cfac imgs)
    (present : List Nat) (hpr : ∀ i ∈ present, i < n) (hne : present ≠ []) (cov : Option Coverage) (hf : Full channel n cols lines cov)
    (hbits : ∀ i < n, ∀ v ∈ imgs i, v < 65536) (table : List Nat) (hcols : 0 < cols) (htab : 0 < table.length)
    (hcounts : ∀ i < n, ∀ v ∈ imgs i, v < table.length)
    (pro : XritDataset.Prologue) (hd : XritDataset.Header) (sat : String) (wmo : Int) (name : String) (w : Int) (lon ps s o : ℝ)
    (hsay : FilesSay pro hd channel sat wmo name w true lon ps s o)
    (day msec : Nat) (hday : day < 2 ^ 16) (hmsec : msec < 2 ^ 32) (hstart : pro.start = Time.cdsShortOf day msec)
    (y m d : Nat) (hy : 1958 ≤ y) (hv : ValidDate y m d)
    (hdate : daysBetweenYears 1958 y + daysBeforeMonth y m + (d - 1) = day + msec / 86400000)
    (value : Nat → Option Rat) (hzero : value 0 = some 0)
    (valid : String → Bool) (hvalid : valid name = true) (single : ℝ → ℝ) (hlon : |single lon| ≤ 1000) :
    ∃ f img b gt cells, convert env disk cov (present.map files) pro hd 1 0 (some table) value valid single = .ok (some f) ∧
      NetcdfFile.openFile f = some img ∧ img.spacecraft = some sat ∧ img.spacecraftId = some wmo ∧
      img.datetime = DatetimeSpec.stamp y m d (msec / 3600000 % 24) (msec / 60000 % 60) 0 ∧ img.lon = single lon ∧
      img.gt = .ok (some gt) ∧
      (∀ x y : ℝ, gt.x0 + x * gt.dx + y * gt.rx = (x - side channel / 2) * ps ∧ gt.y0 + x * gt.ry + y * gt.dy = (side channel / 2 - y) * ps) ∧
      img.nx = side channel ∧ img.ny = side channel ∧ img.bands = [b] ∧ b.name = name ∧ b.channel = some (channel, name) ∧ b.units = "K" ∧
      NetcdfBand.readBlock b.var = .ok cells ∧ cells.length = side channel * side channel ∧
      b.nodata = some 0 ∧ b.scale = 1 ∧ b.offset = 0 ∧
      ∀ seg < n, ∀ row < lines, ∀ x < side channel,
        match sampleAt (windows channel cov) cols (seg * lines + row + 1) x with
        | none => cells[(side channel - 1 - (seg * lines + row)) * side channel + x]? = some (.real (some 0))
        | some k => ∃ count entry, fileSample imgs present cols cfac seg row k = some count ∧ table[count]? = some entry ∧
            cells[(side channel - 1 - (seg * lines + row)) * side channel + x]? = some (.real (value (notNegative entry))) := by
  obtain ⟨f, img, b, gt, cells, e1, e2, e3, e4, e5, e6, e7, e8, e9, e10, e11, e12, e13, e14, e15, e16, e17, _, e19, e20, e21⟩ :=
    converted h present hpr hne cov hf hbits (some table) _ (.table table htab hcols hcounts) pro hd sat wmo name w true lon ps s o hsay
      (fun h => by cases h) day msec hday hmsec hstart y m d hy hv hdate 1 0 value valid hvalid single hlon
  refine ⟨f, img, b, gt, cells, e1, e2, e3, e4, e5, e6, e7, gt_position e8, e9, e10, e11, e12, e13, e17.2 rfl, e19, e20, e14, e15, e16, ?_⟩
  intro seg hs row hr x hx
  have hlt : (side channel - 1 - (seg * lines + row)) * side channel + x < cells.length := by
    rw [e20]
    have hpos : 0 < side channel := by unfold side; split <;> norm_num
    have : side channel - 1 - (seg * lines + row) + 1 ≤ side channel := by omega
    calc _ < (side channel - 1 - (seg * lines + row)) * side channel + side channel := by omega
      _ = (side channel - 1 - (seg * lines + row) + 1) * side channel := by ring
      _ ≤ _ := Nat.mul_le_mul_right _ this
  have he := e21 seg hs row hr x hx
  rw [List.getElem?_eq_getElem hlt] at he ⊢
  cases hsa : sampleAt (windows channel cov) cols (seg * lines + row + 1) x with
  | none =>
    rw [hsa] at he
    dsimp only at he ⊢
    rw [he]
    simp [cell, hzero]
  | some k =>
    rw [hsa] at he
    dsimp only at he ⊢
    obtain ⟨c, c1, c2⟩ := Option.map_eq_some_iff.1 he.symm
    obtain ⟨count, d1, d2⟩ := Option.bind_eq_some_iff.1 c1
    obtain ⟨entry, f1, f2⟩ := Option.map_eq_some_iff.1 d2
    refine ⟨count, entry, d1, f1, ?_⟩
    rw [← c2, f2]
    rfl

end

/-- The calibration table of `get_calibration`, as bits of `float`s: entry `v` is the temperature of the radiance of count `v`, rounded to a
`float`; where there is none it is not a number.  `value` is the number of the bits and `round` how numbers are rounded. -/
def TableOf (value : Nat → Option Rat) (round : ℝ → Rat) (k : ℝ × ℝ × ℝ) (s o : ℝ) (table : List Nat) : Prop :=
  ∀ v e : Nat, table[v]? = some e →
    match XritDataset.temperature k.1 k.2.1 k.2.2 (v * s + o) with
    | none => Xrit.isNaN32 e = true
    | some T => value e = some (round T) ∧ Xrit.isNaN32 e = false ∧ (Xrit.isNeg32 e = true ↔ round T < 0)

theorem entry_temperature {value : Nat → Option Rat} {round : ℝ → Rat} {k : ℝ × ℝ × ℝ} {s o : ℝ} {table : List Nat} (hk : Sound k)
    (ht : TableOf value round k s o table) (hzero : value 0 = some 0) (h0 : ∀ T, T ≤ 0 → round T ≤ 0) (h1 : ∀ T, 0 < T → 0 ≤ round T)
    (v e : Nat) (he : table[v]? = some e) :
    (∀ T, 0 < T → SeviriSpec.effective k T = v * s + o → value (notNegative e) = some (round T)) ∧
    ((¬ ∃ T, 0 < T ∧ SeviriSpec.effective k T = v * s + o) → value (notNegative e) = some 0) := by
  have hte := ht v e he
  rcases lt_or_ge (SeviriSpec.effective k 0) (v * s + o) with hpos | hneg
  · obtain ⟨w1, w2⟩ := written_pos k hk _ hpos
    constructor
    · intro T hT heff
      have hTw : T = written k (v * s + o) := by
        rcases lt_trichotomy (written k (v * s + o)) T with h5 | h5 | h5
        · have := effective_mono k hk _ _ w1.le h5
          linarith
        · exact h5.symm
        · have := effective_mono k hk _ _ hT.le h5
          linarith
      unfold written at hTw w1
      split at hte
      · rename_i hn
        rw [hn] at w1
        exact absurd w1 (lt_irrefl _)
      · rename_i res hn
        rw [hn] at hTw w1
        dsimp only at hTw w1
        by_cases hr : res < 0
        · rw [if_pos hr] at w1
          exact absurd w1 (lt_irrefl _)
        · rw [if_neg hr] at hTw w1
          subst hTw
          have hnn : Xrit.isNeg32 e = false := by
            rw [Bool.eq_false_iff]
            intro hneg
            exact absurd (hte.2.2.1 hneg) (not_lt.2 (h1 _ w1))
          unfold notNegative
          rw [hnn, hte.2.1]
          exact hte.1
    · intro hno
      exact absurd ⟨_, w1, w2⟩ hno
  · have w := written_zero k hk _ hneg
    constructor
    · intro T hT heff
      have := effective_mono k hk _ _ (le_refl 0) hT
      linarith
    · intro _
      unfold written at w
      split at hte
      · unfold notNegative
        rw [hte, Bool.or_true, if_pos rfl]
        exact hzero
      · rename_i res hn
        rw [hn] at w
        dsimp only at w
        have hle : res ≤ 0 := by
          by_cases hr : res < 0
          · exact hr.le
          · rw [if_neg hr] at w
            exact w.le
        have hr := h0 _ hle
        unfold notNegative
        by_cases hb : Xrit.isNeg32 e = true
        · rw [hb, Bool.true_or, if_pos rfl]
          exact hzero
        · rw [Bool.not_eq_true] at hb
          rw [hb, hte.2.1, if_neg (by decide), hte.1]
          have : ¬ round res < 0 := fun h => by rw [hte.2.2.2 h] at hb; cases hb
          simp [le_antisymm hr (not_lt.1 this)]

section
variable {env : Env} {disk : Disk} {files : Nat → Bytes} {n cols lines channel planned format : Nat}
  {cfac : Int} {imgs : Nat → List Nat}

/-- xRIT to NetCDF, thermal channels, with the calibration table that the prologue gives: the pixel of each sample in the NetCDF file is the
temperature, rounded, whose effective radiance by Planck's law is the slope times the count plus the offset; it is 0, that is missing, if there
is none, and where there are no samples. -/
theorem C122_temperature (h : Segments env disk files n cols lines channel planned format cfac imgs)
    (present : List Nat) (hpr : ∀ i ∈ present, i < n) (hne : present ≠ []) (cov : Option Coverage) (hf : Full channel n cols lines cov)
    (hbits : ∀ i < n, ∀ v ∈ imgs i, v < 65536) (table : List Nat) (hcols : 0 < cols) (htab : 0 < table.length)
    (hcounts : ∀ i < n, ∀ v ∈ imgs i, v < table.length)
    (pro : XritDataset.Prologue) (hd : XritDataset.Header) (sat : String) (wmo : Int) (name : String) (w : Int) (lon ps s o : ℝ)
    (hsay : FilesSay pro hd channel sat wmo name w true lon ps s o)
    (day msec : Nat) (hday : day < 2 ^ 16) (hmsec : msec < 2 ^ 32) (hstart : pro.start = Time.cdsShortOf day msec)
    (y m d : Nat) (hy : 1958 ≤ y) (hv : ValidDate y m d)
    (hdate : daysBetweenYears 1958 y + daysBeforeMonth y m + (d - 1) = day + msec / 86400000)
    (value : Nat → Option Rat) (hzero : value 0 = some 0) (round : ℝ → Rat) (h0 : ∀ T, T ≤ 0 → round T ≤ 0) (h1 : ∀ T, 0 < T → 0 ≤ round T)
    (k : ℝ × ℝ × ℝ) (hk : SeviriSpec.constants channel = some k) (htable : TableOf value round k s o table)
    (valid : String → Bool) (hvalid : valid name = true) (single : ℝ → ℝ) (hlon : |single lon| ≤ 1000) :
    ∃ f img b cells, convert env disk cov (present.map files) pro hd 1 0 (some table) value valid single = .ok (some f) ∧
      NetcdfFile.openFile f = some img ∧ img.bands = [b] ∧ NetcdfBand.readBlock b.var = .ok cells ∧
      b.units = "K" ∧ b.nodata = some 0 ∧ b.scale = 1 ∧ b.offset = 0 ∧
      ∀ seg < n, ∀ row < lines, ∀ x < side channel, ∃ pixel,
        cells[(side channel - 1 - (seg * lines + row)) * side channel + x]? = some (.real (some pixel)) ∧
        match sampleAt (windows channel cov) cols (seg * lines + row + 1) x with
        | none => pixel = 0
        | some i => ∃ count, fileSample imgs present cols cfac seg row i = some count ∧
            (∀ T, 0 < T → SeviriSpec.effective k T = count * s + o → pixel = round T) ∧
            ((¬ ∃ T, 0 < T ∧ SeviriSpec.effective k T = count * s + o) → pixel = 0) := by
  obtain ⟨f, img, b, _, cells, e1, e2, _, _, _, _, _, _, _, _, e11, _, _, e14, e15, _, e17, e18, e19, e20⟩ :=
    C122_thermal h present hpr hne cov hf hbits table hcols htab hcounts pro hd sat wmo name w lon ps s o hsay day msec hday hmsec hstart y m d hy
      hv hdate value hzero valid hvalid single hlon
  refine ⟨f, img, b, cells, e1, e2, e11, e15, e14, e17, e18, e19, fun seg hs row hr x hx => ?_⟩
  have he := e20 seg hs row hr x hx
  split at he
  · exact ⟨0, he, rfl⟩
  · obtain ⟨count, entry, c1, c2, c3⟩ := he
    obtain ⟨t1, t2⟩ := entry_temperature (constants_sound _ _ hk) htable hzero h0 h1 count entry c2
    by_cases hT : ∃ T, 0 < T ∧ SeviriSpec.effective k T = count * s + o
    · obtain ⟨T, hT1, hT2⟩ := hT
      have hval := t1 T hT1 hT2
      refine ⟨round T, by rw [c3, hval], count, c1, fun T' h' he' => ?_, fun hno => absurd ⟨T, hT1, hT2⟩ hno⟩
      have := t1 T' h' he'
      rw [hval] at this
      exact Option.some.inj this
    · exact ⟨0, by rw [c3, t2 hT], count, c1, fun T h' he' => absurd ⟨T, h', he'⟩ hT, fun _ => rfl⟩

end

/-! ### Cases -/

/-- Segment `i` of a product of two segments. -/
def halfOf (channel i : Nat) : List Rec :=
  [.imageStructure 10 2 1856 1, .segmentId 323 channel (i + 1) 1 2 2,
   .navigation (str "GEOS(+000.0)" ++ List.replicate 20 32) (-13642337) (-13642337) 1856 1856]

theorem halfOf_ok (channel i : Nat) (hc : channel = 1 ∨ channel = 9) (hi : i < 2) : FileOk 0 (halfOf channel i) [9, 9] := by
  have : i = 0 ∨ i = 1 := by omega
  rcases hc with rfl | rfl <;> rcases this with rfl | rfl
  all_goals
    refine fileOk_plain (by decide) (by decide) (by decide +kernel) ?_ (by simp [halfOf])
    intro r hr
    simp only [halfOf, List.mem_cons, List.not_mem_nil, or_false] at hr
    rcases hr with rfl | rfl | rfl <;> simp only [Rec.InRange] <;> decide +kernel

theorem halves (channel : Nat) (hc : channel = 1 ∨ channel = 9) : Segments aDecoder
    (fun f => if f = [1] then some (fileOf 0 (halfOf channel 0) [9, 9] [])
      else if f = [2] then some (fileOf 0 (halfOf channel 1) [9, 9] []) else none)
    (fun i => if i = 0 then [1] else [2]) 2 2 1856 channel 2 2 (-13642337) (fun _ => List.range (2 * 1856)) := by
  refine ⟨fun i hi => by split <;> simp, by decide, fun _ => rfl, fun i hi => ?_⟩
  refine ⟨halfOf channel i, [9, 9], [], 10, 1, 323, 1, -13642337, 1856, 1856, ?_, halfOf_ok channel i hc hi,
    rfl, by decide, rfl, rfl, rfl, by simp⟩
  have : i = 0 ∨ i = 1 := by omega
  rcases this with rfl | rfl <;> simp

theorem halves_full (channel : Nat) (hc : channel = 1 ∨ channel = 9) : Full channel 2 2 1856 none := by
  rcases hc with rfl | rfl <;>
    exact ⟨by decide, by decide, by decide, by simp [windows], fun _ _ => by simp [windows, XritSpec.OnGrid]⟩

theorem halves_say (channel : Nat) (hc : channel = 1 ∧ name = "VIS006" ∧ w = 6 ∧ thermal = false ∨ channel = 9 ∧ name = "IR_108" ∧ w = 108 ∧ thermal = true) :
    FilesSay aPrologue ⟨323, channel, 10, some 0⟩ channel "MSG3" 57 name w thermal 0 3000.40307617188 0.2 (-10.4) := by
  refine ⟨⟨by simp, by rcases hc with ⟨rfl, _⟩ | ⟨rfl, _⟩ <;> simp, by simp [aPrologue], by simp⟩, rfl,
    by show ("MSG3", (57 : Int), some ((323 : Nat) : Int)) ∈ _; decide +kernel, by decide +kernel, ?_, rfl, .inl rfl, ?_, ?_, ?_⟩
  · rcases hc with ⟨rfl, rfl, rfl, rfl⟩ | ⟨rfl, rfl, rfl, rfl⟩ <;> decide +kernel
  · have : channel ≠ 12 := by rcases hc with ⟨rfl, _⟩ | ⟨rfl, _⟩ <;> decide
    unfold About
    rw [if_neg this]
    simp only [aPrologue]
    rw [abs_lt, abs_of_pos (by norm_num)]
    constructor <;> norm_num
  · have : channel ≠ 12 := by rcases hc with ⟨rfl, _⟩ | ⟨rfl, _⟩ <;> decide
    unfold About
    rw [if_neg this]
    simp only [aPrologue]
    rw [abs_lt, abs_of_pos (by norm_num)]
    constructor <;> norm_num
  · rcases hc with ⟨rfl, _⟩ | ⟨rfl, _⟩ <;> simp [aPrologue]

/-- The windows and the segments of a nominal HRV product. -/
example : Full 12 24 5568 464 (some ⟨1, 8064, 2825, 8392, 8065, 11136, 1500, 7067⟩) := by
  refine ⟨by decide, by decide, by decide, ?_, fun g hg => ?_⟩
  · simp only [windows, if_true]
    exact ⟨⟨by decide, by decide, by decide⟩, .inl ⟨⟨by decide, by decide, by decide⟩, by decide⟩⟩
  · simp only [side, if_true] at hg
    simp only [windows, if_true, XritSpec.OnGrid, XritSpec.Within]
    omega

/-- The second of two segments of an image of channel VIS006, of the 24th of October 2014 at 12:00, is converted. -/
example : ∃ f, convert aDecoder (fun f => if f = [1] then some (fileOf 0 (halfOf 1 0) [9, 9] [])
      else if f = [2] then some (fileOf 0 (halfOf 1 1) [9, 9] []) else none) none
    ([1].map fun i => if i = 0 then [1] else [2]) aPrologue ⟨323, 1, 10, some 0⟩ (1 / 5) (-52 / 5) none (fun _ => none) (fun _ => true) id =
      .ok (some f) ∧ ∃ img, NetcdfFile.openFile f = some img ∧ img.datetime = DatetimeSpec.stamp 2014 10 24 12 0 0 := by
  obtain ⟨f, img, _, _, _, e1, e2, _, _, e5, _⟩ := C122_solar (halves 1 (.inl rfl)) [1] (by simp) (by simp) none (halves_full 1 (.inl rfl))
    (fun i _ v hv => by have := List.mem_range.1 hv; omega) aPrologue ⟨323, 1, 10, some 0⟩ "MSG3" 57 "VIS006" 6 0 3000.40307617188 0.2 (-10.4)
    (halves_say 1 (.inl ⟨rfl, rfl, rfl, rfl⟩)) 20750 43211000 (by norm_num) (by norm_num) rfl 2014 10 24 (by norm_num)
    (by unfold Spec.ValidDate; decide +kernel) (by decide +kernel) (1 / 5) (-52 / 5) (by norm_num) (by norm_num) (fun _ => none) (fun _ => true) rfl
    id (by simp)
  exact ⟨f, e1, img, e2, e5⟩

/-- The same for channel IR_108. -/
example : ∃ f, convert aDecoder (fun f => if f = [1] then some (fileOf 0 (halfOf 9 0) [9, 9] [])
      else if f = [2] then some (fileOf 0 (halfOf 9 1) [9, 9] []) else none) none
    ([1, 0].map fun i => if i = 0 then [1] else [2]) aPrologue ⟨323, 9, 10, some 0⟩ 1 0 (some (List.range 4096)) (fun v => some v) (fun _ => true) id =
      .ok (some f) ∧ ∃ img, NetcdfFile.openFile f = some img ∧ img.spacecraft = some "MSG3" := by
  obtain ⟨f, img, _, _, _, e1, e2, e3, _⟩ := C122_thermal (halves 9 (.inr rfl)) [1, 0] (by simp) (by simp) none (halves_full 9 (.inr rfl))
    (fun i _ v hv => by have := List.mem_range.1 hv; omega) (List.range 4096) (by norm_num) (by rw [List.length_range]; norm_num)
    (fun i _ v hv => by have := List.mem_range.1 hv; rw [List.length_range]; omega)
    aPrologue ⟨323, 9, 10, some 0⟩ "MSG3" 57 "IR_108" 108 0 3000.40307617188 0.2 (-10.4)
    (halves_say 9 (.inr ⟨rfl, rfl, rfl, rfl⟩)) 20750 43211000 (by norm_num) (by norm_num) rfl 2014 10 24 (by norm_num)
    (by unfold Spec.ValidDate; decide +kernel) (by decide +kernel) (fun v => some v) (by simp) (fun _ => true) rfl
    id (by simp)
  exact ⟨f, e1, img, e2, e3⟩

open Classical in
/-- A table of temperatures of 4096 counts, for a machine with the numbers 0 and 1. -/
theorem aTableOf (k : ℝ × ℝ × ℝ) (s o : ℝ) : ∃ table : List Nat, table.length = 4096 ∧
    TableOf (fun e => some (if e = 0 then 0 else 1)) (fun T => if 0 < T then 1 else 0) k s o table := by
  refine ⟨(List.range 4096).map fun v : Nat => match XritDataset.temperature k.1 k.2.1 k.2.2 ((v : ℝ) * s + o) with
    | none => 0x7fc00000
    | some T => if 0 < T then 0x3f800000 else 0, by rw [List.length_map, List.length_range], ?_⟩
  intro v e he
  rw [List.getElem?_map] at he
  obtain ⟨v', h1, h2⟩ := Option.map_eq_some_iff.1 he
  have : v' = v := by
    obtain ⟨hlt, h1⟩ := List.getElem?_eq_some_iff.1 h1
    rw [List.getElem_range] at h1
    exact h1.symm
  subst this
  cases ht : XritDataset.temperature k.1 k.2.1 k.2.2 (v' * s + o) with
  | none =>
    rw [ht] at h2
    dsimp only at h2 ⊢
    subst h2
    decide +kernel
  | some T =>
    rw [ht] at h2
    dsimp only at h2 ⊢
    by_cases hT : 0 < T
    · rw [if_pos hT] at h2 ⊢
      subst h2
      exact ⟨by simp, by decide +kernel, ⟨fun h => absurd h (by decide +kernel), fun h => absurd h (by norm_num)⟩⟩
    · rw [if_neg hT] at h2 ⊢
      subst h2
      exact ⟨by simp, by decide +kernel, ⟨fun h => absurd h (by decide +kernel), fun h => absurd h (by norm_num)⟩⟩

open Classical in
/-- The image of channel IR_108 with such a table. -/
theorem aTemperatureImage : ∃ table f img b cells, convert aDecoder (fun f => if f = [1] then some (fileOf 0 (halfOf 9 0) [9, 9] [])
      else if f = [2] then some (fileOf 0 (halfOf 9 1) [9, 9] []) else none) none
    ([1, 0].map fun i => if i = 0 then [1] else [2]) aPrologue ⟨323, 9, 10, some 0⟩ 1 0 (some table) (fun e => some (if e = 0 then 0 else 1))
    (fun _ => true) id = .ok (some f) ∧ NetcdfFile.openFile f = some img ∧ img.bands = [b] ∧ NetcdfBand.readBlock b.var = .ok cells ∧
    b.units = "K" := by
  obtain ⟨table, t1, t2⟩ := aTableOf (930.659, 0.9983, 0.627) 0.2 (-10.4)
  obtain ⟨f, img, b, cells, e1, e2, e3, e4, e5, _⟩ := C122_temperature (halves 9 (.inr rfl)) [1, 0] (by simp) (by simp) none
    (halves_full 9 (.inr rfl)) (fun i _ v hv => by have := List.mem_range.1 hv; omega) table (by norm_num) (by rw [t1]; norm_num)
    (fun i _ v hv => by have := List.mem_range.1 hv; rw [t1]; omega)
    aPrologue ⟨323, 9, 10, some 0⟩ "MSG3" 57 "IR_108" 108 0 3000.40307617188 0.2 (-10.4)
    (halves_say 9 (.inr ⟨rfl, rfl, rfl, rfl⟩)) 20750 43211000 (by norm_num) (by norm_num) rfl 2014 10 24 (by norm_num)
    (by unfold Spec.ValidDate; decide +kernel) (by decide +kernel) (fun e => some (if e = 0 then 0 else 1)) (by simp)
    (fun T => if 0 < T then 1 else 0) (fun T h => by rw [if_neg (not_lt.2 h)]) (fun T h => by rw [if_pos h]; norm_num)
    (930.659, 0.9983, 0.627) rfl t2 (fun _ => true) rfl id (by simp)
  exact ⟨table, f, img, b, cells, e1, e2, e3, e4, e5⟩

end Msat.Props
