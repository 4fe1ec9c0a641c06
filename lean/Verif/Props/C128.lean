import Verif.Props.C124

/-
C128 A segment of an xRIT product that was not found, or is found later, changes its own lines only.
-/
namespace Msat.Props
open Msat Spec Hrit HritSpec XritToNetcdf
open Msat.Xrit (Coverage)
open Msat.XritSpec (sampleAt)

section
variable {env : Env} {disk : Disk} {files : Nat → Bytes} {n cols lines channel planned format : Nat}
  {cfac : Int} {imgs : Nat → List Nat}

theorem same_sample (a b : List Nat) {seg : Nat} (hs : seg ∈ a ↔ seg ∈ b) (row k : Nat) :
    fileSample imgs a cols cfac seg row k = fileSample imgs b cols cfac seg row k := by
  unfold fileSample
  by_cases hm : seg ∈ a
  · rw [if_pos hm, if_pos (hs.1 hm)]
  · rw [if_neg hm, if_neg fun hb => hm (hs.2 hb)]

/-- xRIT to NetCDF with some segments, `a`, and with others, `b`: both are converted, to images of the same size, with the same satellite, date,
longitude and band, and each line of a segment that is in both or in none has the same pixels. -/
theorem C128_netcdf (h : Segments env disk files n cols lines channel planned format cfac imgs)
    (a b : List Nat) (ha : ∀ i ∈ a, i < n) (hb : ∀ i ∈ b, i < n) (hna : a ≠ []) (hnb : b ≠ []) (cov : Option Coverage)
    (hf : Full channel n cols lines cov)
    (hbits : ∀ i < n, ∀ v ∈ imgs i, v < 65536) (table : Option (List Nat)) (look : Nat → Option Nat) (hlook : Looks imgs n cols table look)
    (pro : XritDataset.Prologue) (hd : XritDataset.Header) (sat : String) (wmo : Int) (name : String) (w : Int) (thermal : Bool) (lon ps s o : ℝ)
    (hsay : FilesSay pro hd channel sat wmo name w thermal lon ps s o) (hth : thermal = false → look = some)
    (day msec : Nat) (hday : day < 2 ^ 16) (hmsec : msec < 2 ^ 32) (hstart : pro.start = Time.cdsShortOf day msec)
    (y m d : Nat) (hy : 1958 ≤ y) (hv : ValidDate y m d)
    (hdate : daysBetweenYears 1958 y + daysBeforeMonth y m + (d - 1) = day + msec / 86400000)
    (scale offset : Rat) (value : Nat → Option Rat) (valid : String → Bool) (hvalid : valid name = true)
    (single : ℝ → ℝ) (hlon : |single lon| ≤ 1000) :
    ∃ fa fb ia ib ba bb ca cb, convert env disk cov (a.map files) pro hd scale offset table value valid single = .ok (some fa) ∧
      convert env disk cov (b.map files) pro hd scale offset table value valid single = .ok (some fb) ∧
      NetcdfFile.openFile fa = some ia ∧ NetcdfFile.openFile fb = some ib ∧ ia.spacecraft = ib.spacecraft ∧ ia.spacecraftId = ib.spacecraftId ∧
      ia.datetime = ib.datetime ∧ ia.lon = ib.lon ∧ ia.nx = ib.nx ∧ ia.ny = ib.ny ∧ ia.bands = [ba] ∧ ib.bands = [bb] ∧ ba.name = bb.name ∧
      ba.nodata = bb.nodata ∧ ba.scale = bb.scale ∧ ba.offset = bb.offset ∧
      NetcdfBand.readBlock ba.var = .ok ca ∧ NetcdfBand.readBlock bb.var = .ok cb ∧
      ca.length = side channel * side channel ∧ cb.length = side channel * side channel ∧
      ∀ seg < n, (seg ∈ a ↔ seg ∈ b) → ∀ row < lines, ∀ x < side channel,
        ca[(side channel - 1 - (seg * lines + row)) * side channel + x]? = cb[(side channel - 1 - (seg * lines + row)) * side channel + x]? := by
  obtain ⟨fa, ia, ba, _, ca, e1, e2, e3, e4, e5, e6, _, _, e9, e10, e11, e12, _, e14, e15, e16, _, _, e19, e20, e21⟩ := converted h a ha hna cov hf
    hbits table look hlook pro hd sat wmo name w thermal lon ps s o hsay hth day msec hday hmsec hstart y m d hy hv hdate scale offset value valid
    hvalid single hlon
  obtain ⟨fb, ib, bb, _, cb, f1, f2, f3, f4, f5, f6, _, _, f9, f10, f11, f12, _, f14, f15, f16, _, _, f19, f20, f21⟩ := converted h b hb hnb cov hf
    hbits table look hlook pro hd sat wmo name w thermal lon ps s o hsay hth day msec hday hmsec hstart y m d hy hv hdate scale offset value valid
    hvalid single hlon
  refine ⟨fa, fb, ia, ib, ba, bb, ca, cb, e1, f1, e2, f2, e3.trans f3.symm, e4.trans f4.symm, e5.trans f5.symm, e6.trans f6.symm, e9.trans f9.symm,
    e10.trans f10.symm, e11, f11, e12.trans f12.symm, e14.trans f14.symm, e15.trans f15.symm, e16.trans f16.symm, e19, f19, e20, f20, ?_⟩
  intro seg hs hmem row hr x hx
  rw [e21 seg hs row hr x hx, f21 seg hs row hr x hx]
  cases sampleAt (windows channel cov) cols (seg * lines + row + 1) x with
  | none => rfl
  | some k => dsimp only; rw [same_sample a b hmem]

/-- **Partial.** The same for GRIB.  Missing: images without measures, that are not converted (`C128_violated_blank`), and pixel sizes further than a
tenth of a millimetre from the standard ones. -/
theorem C128_grib_partial (h : Segments env disk files n cols lines channel planned format cfac imgs)
    (a b : List Nat) (ha : ∀ i ∈ a, i < n) (hb : ∀ i ∈ b, i < n) (hna : a ≠ []) (hnb : b ≠ []) (cov : Option Coverage)
    (hf : Full channel n cols lines cov) (table : Option (List Nat)) (look : Nat → Option Nat) (hlook : Looks imgs n cols table look)
    (pro : XritDataset.Prologue) (hd : XritDataset.Header) (sat : String) (wmo : Int) (name : String) (w : Int) (thermal : Bool) (lon ps s o : ℝ)
    (hsay : FilesSay pro hd channel sat wmo name w thermal lon ps s o)
    (hcx : Close ps |1000 * (if channel = 12 then pro.gridHrv else pro.gridVisIr).1|)
    (hcy : Close ps |1000 * (if channel = 12 then pro.gridHrv else pro.gridVisIr).2|)
    (day msec : Nat) (hday : day < 2 ^ 16) (hmsec : msec < 2 ^ 32) (hstart : pro.start = Time.cdsShortOf day msec)
    (y m d : Nat) (hy : 1958 ≤ y) (hv : ValidDate y m d)
    (hdate : daysBetweenYears 1958 y + daysBeforeMonth y m + (d - 1) = day + msec / 86400000)
    (scale offset : Rat) (hscale : scale ≠ 0) (value : Nat → Option Rat) (pack : Rat → Rat) (sample : GribFile.Template → List (String × Int))
    (hsample : plainSample sample) (blank : Datetime.Message) (option : Option String) (t : GribFile.Template)
    (ht : GribFile.templateOf option = some t) (old : Option GribFile.Message)
    (hsome : ∀ l, l = a ∨ l = b → ∃ seg < n, ∃ row < lines, ∃ x < side channel, ∃ k v,
      sampleAt (windows channel cov) cols (seg * lines + row + 1) x = some k ∧ (fileSample imgs l cols cfac seg row k).bind look = some v ∧
      XritToGrib.number (!thermal) value v ≠ 0) :
    ∃ ia ib pa pb, XritToGrib.convert env disk cov (a.map files) pro hd scale offset table value pack sample blank option old = .ok (some ia) ∧
      XritToGrib.convert env disk cov (b.map files) pro hd scale offset table value pack sample blank option old = .ok (some ib) ∧
      ia.image.sx = ib.image.sx ∧ ia.image.sy = ib.image.sy ∧ ia.image.spacecraft = ib.image.spacecraft ∧ ia.image.channel = ib.image.channel ∧
      ia.image.nodata = ib.image.nodata ∧ ia.datetime = ib.datetime ∧ ia.lon = ib.lon ∧ ia.image.pixels = some pa ∧ ib.image.pixels = some pb ∧
      pa.length = side channel * side channel ∧ pb.length = side channel * side channel ∧
      ∀ seg < n, (seg ∈ a ↔ seg ∈ b) → ∀ row < lines, ∀ x < side channel,
        pa[(side channel - 1 - (seg * lines + row)) * side channel + x]? = pb[(side channel - 1 - (seg * lines + row)) * side channel + x]? := by
  have hs' : ∀ l, l = a ∨ l = b → ∃ seg < n, ∃ row < lines, ∃ x < side channel, ∃ v,
      (match sampleAt (windows channel cov) cols (seg * lines + row + 1) x with
        | none => some 0
        | some k => (fileSample imgs l cols cfac seg row k).bind look) = some v ∧ XritToGrib.number (!thermal) value v ≠ 0 := by
    intro l hl
    obtain ⟨seg, hs, row, hr, x, hx, k, v, k1, k2, k3⟩ := hsome l hl
    exact ⟨seg, hs, row, hr, x, hx, v, by rw [k1]; exact k2, k3⟩
  obtain ⟨ia, _, pa, e1, e2, e3, e4, e5, e6, e7, _, _, _, e11, e12, e13, e14⟩ := toGrib h a ha hna cov hf table look hlook pro hd sat wmo name w thermal
    lon ps s o hsay hcx hcy day msec hday hmsec hstart y m d hy hv hdate scale offset hscale value pack sample hsample blank option t ht old
    (hs' a (.inl rfl))
  obtain ⟨ib, _, pb, f1, f2, f3, f4, f5, f6, f7, _, _, _, f11, f12, f13, f14⟩ := toGrib h b hb hnb cov hf table look hlook pro hd sat wmo name w thermal
    lon ps s o hsay hcx hcy day msec hday hmsec hstart y m d hy hv hdate scale offset hscale value pack sample hsample blank option t ht old
    (hs' b (.inr rfl))
  refine ⟨ia, ib, pa, pb, e1, f1, e2.trans f2.symm, e3.trans f3.symm, e4.trans f4.symm, e5.trans f5.symm, e13.trans f13.symm, e6.trans f6.symm,
    e7.trans f7.symm, e11, f11, e12, f12, ?_⟩
  intro seg hs hmem row hr x hx
  obtain ⟨v, v1, v2⟩ := e14 seg hs row hr x hx
  obtain ⟨v', v3, v4⟩ := f14 seg hs row hr x hx
  have hvv : v = v' := by
    cases hsa : sampleAt (windows channel cov) cols (seg * lines + row + 1) x with
    | none => rw [hsa] at v1 v3; exact Option.some.inj (v1.symm.trans v3)
    | some k =>
      rw [hsa] at v1 v3
      dsimp only at v1 v3
      rw [same_sample a b hmem] at v1
      exact Option.some.inj (v1.symm.trans v3)
  rw [v2, v4, hvv]

/-- Discrepancy: a product whose first segments have no measure (an image taken at sunset) is not converted to GRIB with those alone, although it is
with one more that has a measure. -/
theorem C128_violated_blank (h : Segments env disk files n cols lines channel planned format cfac imgs)
    (a b : List Nat) (ha : ∀ i ∈ a, i < n) (hb : ∀ i ∈ b, i < n) (hna : a ≠ []) (hnb : b ≠ []) (cov : Option Coverage)
    (hf : Full channel n cols lines cov) (table : Option (List Nat)) (look : Nat → Option Nat) (hlook : Looks imgs n cols table look)
    (pro : XritDataset.Prologue) (hd : XritDataset.Header) (sat : String) (wmo : Int) (name : String) (w : Int) (thermal : Bool) (lon ps s o : ℝ)
    (hsay : FilesSay pro hd channel sat wmo name w thermal lon ps s o)
    (hcx : Close ps |1000 * (if channel = 12 then pro.gridHrv else pro.gridVisIr).1|)
    (hcy : Close ps |1000 * (if channel = 12 then pro.gridHrv else pro.gridVisIr).2|)
    (day msec : Nat) (hday : day < 2 ^ 16) (hmsec : msec < 2 ^ 32) (hstart : pro.start = Time.cdsShortOf day msec)
    (y m d : Nat) (hy : 1958 ≤ y) (hv : ValidDate y m d)
    (hdate : daysBetweenYears 1958 y + daysBeforeMonth y m + (d - 1) = day + msec / 86400000)
    (scale offset : Rat) (hscale : scale ≠ 0) (value : Nat → Option Rat) (hzero : value 0 = some 0) (pack : Rat → Rat)
    (sample : GribFile.Template → List (String × Int))
    (hsample : plainSample sample) (blank : Datetime.Message) (option : Option String) (t : GribFile.Template)
    (ht : GribFile.templateOf option = some t) (old : Option GribFile.Message)
    (hnone : ∀ seg < n, ∀ row < lines, ∀ x < side channel, ∀ i v, sampleAt (windows channel cov) cols (seg * lines + row + 1) x = some i →
      (fileSample imgs a cols cfac seg row i).bind look = some v → v = 0)
    (hsome : ∃ seg < n, ∃ row < lines, ∃ x < side channel, ∃ k v,
      sampleAt (windows channel cov) cols (seg * lines + row + 1) x = some k ∧ (fileSample imgs b cols cfac seg row k).bind look = some v ∧
      XritToGrib.number (!thermal) value v ≠ 0) :
    XritToGrib.convert env disk cov (a.map files) pro hd scale offset table value pack sample blank option old = .ok none ∧
      ∃ ib, XritToGrib.convert env disk cov (b.map files) pro hd scale offset table value pack sample blank option old = .ok (some ib) := by
  refine ⟨C124_violated_blank h a ha hna cov hf table look hlook pro hd sat wmo name w thermal lon ps s o hsay hcx hcy day msec hday hmsec hstart y m d
    hy hv hdate scale offset value pack sample blank option t ht old hzero hnone, ?_⟩
  obtain ⟨ib, _, _, e, _⟩ := toGrib h b hb hnb cov hf table look hlook pro hd sat wmo name w thermal
    lon ps s o hsay hcx hcy day msec hday hmsec hstart y m d hy hv hdate scale offset hscale value pack sample hsample blank option t ht old (by
      obtain ⟨seg, hs, row, hr, x, hx, k, v, k1, k2, k3⟩ := hsome
      exact ⟨seg, hs, row, hr, x, hx, v, by rw [k1]; exact k2, k3⟩)
  exact ⟨ib, e⟩

end

/-- Both halves of an image of channel VIS008, and the second one alone: the pixels of the lines of the second one are the same. -/
example : ∃ ia ib pa pb, XritToGrib.convert aDecoder (fun f => if f = [1] then some (fileOf 0 (halfOf 2 0) [9, 9] [])
      else if f = [2] then some (fileOf 0 (halfOf 2 1) [9, 9] []) else none) none
      ([1].map fun i => if i = 0 then [1] else [2]) aPrologue ⟨323, 2, 10, some 0⟩ (1 / 5) (-52 / 5) none (fun _ => none) id (fun _ => [])
      ⟨0, 0, 0, 0, 0, 0, 0, 0, 0⟩ none none = .ok (some ia) ∧
    XritToGrib.convert aDecoder (fun f => if f = [1] then some (fileOf 0 (halfOf 2 0) [9, 9] [])
      else if f = [2] then some (fileOf 0 (halfOf 2 1) [9, 9] []) else none) none
      ([0, 1].map fun i => if i = 0 then [1] else [2]) aPrologue ⟨323, 2, 10, some 0⟩ (1 / 5) (-52 / 5) none (fun _ => none) id (fun _ => [])
      ⟨0, 0, 0, 0, 0, 0, 0, 0, 0⟩ none none = .ok (some ib) ∧ ia.image.pixels = some pa ∧ ib.image.pixels = some pb ∧
    ∀ row < 1856, ∀ x < side 2, pa[(side 2 - 1 - (1 * 1856 + row)) * side 2 + x]? = pb[(side 2 - 1 - (1 * 1856 + row)) * side 2 + x]? := by
  obtain ⟨ia, ib, pa, pb, e1, e2, _, _, _, _, _, _, _, e10, e11, _, _, e14⟩ := C128_grib_partial halves2 [1] [0, 1] (by simp) (by simp) (by simp) (by simp)
    none halves_full2 none some .counts aPrologue ⟨323, 2, 10, some 0⟩
    "MSG3" 57 "VIS008" 8 false 0 3000.40307617188 0.2 (-10.4) halves_say2 aClose.1 aClose.2 20750 43211000 (by norm_num) (by norm_num) rfl 2014 10 24
    (by norm_num) (by unfold Spec.ValidDate; decide +kernel) (by decide +kernel) (1 / 5) (-52 / 5) (by norm_num)
    (fun _ => none) id (fun _ => []) (fun _ _ _ => rfl) ⟨0, 0, 0, 0, 0, 0, 0, 0, 0⟩ none .wmo rfl none
    (by
      rintro l (rfl | rfl) <;>
        exact ⟨1, by norm_num, 3, by norm_num, 0, by simp [side], 0, 7, by simp [windows, sampleAt], by simp [fileSample],
          by simp [XritToGrib.number]⟩)
  exact ⟨ia, ib, pa, pb, e1, e2, e10, e11, e14 1 (by norm_num) (by simp)⟩

/-- Both halves of an image of channel VIS006, and the first one alone. -/
example : ∃ fa fb, convert aDecoder (fun f => if f = [1] then some (fileOf 0 (halfOf 1 0) [9, 9] [])
      else if f = [2] then some (fileOf 0 (halfOf 1 1) [9, 9] []) else none) none
      ([0].map fun i => if i = 0 then [1] else [2]) aPrologue ⟨323, 1, 10, some 0⟩ (1 / 5) (-52 / 5) none (fun _ => none) (fun _ => true) id =
        .ok (some fa) ∧
    convert aDecoder (fun f => if f = [1] then some (fileOf 0 (halfOf 1 0) [9, 9] [])
      else if f = [2] then some (fileOf 0 (halfOf 1 1) [9, 9] []) else none) none
      ([1, 0].map fun i => if i = 0 then [1] else [2]) aPrologue ⟨323, 1, 10, some 0⟩ (1 / 5) (-52 / 5) none (fun _ => none) (fun _ => true) id =
        .ok (some fb) := by
  obtain ⟨fa, fb, _, _, _, _, _, _, e1, e2, _⟩ := C128_netcdf (halves 1 (.inl rfl)) [0] [1, 0] (by simp) (by simp) (by simp) (by simp) none
    (halves_full 1 (.inl rfl)) (fun i _ v hv => by have := List.mem_range.1 hv; omega) none some .counts aPrologue ⟨323, 1, 10, some 0⟩
    "MSG3" 57 "VIS006" 6 false 0 3000.40307617188 0.2 (-10.4) (halves_say 1 (.inl ⟨rfl, rfl, rfl, rfl⟩)) (fun _ => rfl) 20750 43211000 (by norm_num)
    (by norm_num) rfl 2014 10 24 (by norm_num) (by unfold Spec.ValidDate; decide +kernel) (by decide +kernel) (1 / 5) (-52 / 5)
    (fun _ => none) (fun _ => true) rfl id (by simp)
  exact ⟨fa, fb, e1, e2⟩

/-- A library that makes an image of zeroes of all data but `[9, 9]`. -/
def aDusk : Env := { aDecoder with decode := fun _ _ c l data => .ok (if data = [9, 9] then List.range (c * l) else List.replicate (c * l) 0) }

theorem halfOf_dusk : FileOk 0 (halfOf 2 0) [8] := by
  refine fileOk_plain (by decide) (by decide) (by decide +kernel) ?_ (by simp [halfOf])
  intro r hr
  simp only [halfOf, List.mem_cons, List.not_mem_nil, or_false] at hr
  rcases hr with rfl | rfl | rfl <;> simp only [Rec.InRange] <;> decide +kernel

theorem halves_dusk : Segments aDusk
    (fun f => if f = [1] then some (fileOf 0 (halfOf 2 0) [8] [])
      else if f = [2] then some (fileOf 0 (halfOf 2 1) [9, 9] []) else none)
    (fun i => if i = 0 then [1] else [2]) 2 2 1856 2 2 2 (-13642337)
    (fun i => if i = 0 then List.replicate (2 * 1856) 0 else List.range (2 * 1856)) := by
  refine ⟨fun i hi => by split <;> simp, by decide, fun _ => rfl, fun i hi => ?_⟩
  have : i = 0 ∨ i = 1 := by omega
  rcases this with rfl | rfl
  · exact ⟨halfOf 2 0, [8], [], 10, 1, 323, 1, -13642337, 1856, 1856, by simp, halfOf_dusk, rfl, by decide, rfl, rfl,
      by unfold aDusk; dsimp only; rw [if_neg (by decide), if_pos rfl], by rw [if_pos rfl]; exact List.length_replicate⟩
  · exact ⟨halfOf 2 1, [9, 9], [], 10, 1, 323, 1, -13642337, 1856, 1856, by simp, halfOf_ok2 1 (by norm_num), rfl, by decide, rfl, rfl,
      by unfold aDusk; dsimp only; rw [if_pos rfl, if_neg (by decide)], by rw [if_neg (by decide)]; exact List.length_range⟩

/-- Only the second half of an image of channel VIS008 has measures. -/
example : XritToGrib.convert aDusk (fun f => if f = [1] then some (fileOf 0 (halfOf 2 0) [8] [])
      else if f = [2] then some (fileOf 0 (halfOf 2 1) [9, 9] []) else none) none
      ([0].map fun i => if i = 0 then [1] else [2]) aPrologue ⟨323, 2, 10, some 0⟩ (1 / 5) (-52 / 5) none (fun _ => some 0) id (fun _ => [])
      ⟨0, 0, 0, 0, 0, 0, 0, 0, 0⟩ none none = .ok none ∧
    ∃ ib, XritToGrib.convert aDusk (fun f => if f = [1] then some (fileOf 0 (halfOf 2 0) [8] [])
      else if f = [2] then some (fileOf 0 (halfOf 2 1) [9, 9] []) else none) none
      ([0, 1].map fun i => if i = 0 then [1] else [2]) aPrologue ⟨323, 2, 10, some 0⟩ (1 / 5) (-52 / 5) none (fun _ => some 0) id (fun _ => [])
      ⟨0, 0, 0, 0, 0, 0, 0, 0, 0⟩ none none = .ok (some ib) :=
  C128_violated_blank halves_dusk [0] [0, 1] (by simp) (by simp) (by simp) (by simp) none halves_full2 none some .counts aPrologue
    ⟨323, 2, 10, some 0⟩ "MSG3" 57 "VIS008" 8 false 0 3000.40307617188 0.2 (-10.4) halves_say2 aClose.1 aClose.2 20750 43211000 (by norm_num)
    (by norm_num) rfl 2014 10 24 (by norm_num) (by unfold Spec.ValidDate; decide +kernel) (by decide +kernel) (1 / 5) (-52 / 5) (by norm_num)
    (fun _ => some 0) rfl id (fun _ => []) (fun _ _ _ => rfl) ⟨0, 0, 0, 0, 0, 0, 0, 0, 0⟩ none .wmo rfl none
    (by
      intro seg _ row _ x _ i v _ hv
      rw [Option.bind_fun_some] at hv
      unfold fileSample at hv
      by_cases hs : seg ∈ [0]
      · have h0 : seg = 0 := by simpa using hs
        subst h0
        rw [if_pos hs] at hv
        exact List.eq_of_mem_replicate (List.mem_of_getElem? hv)
      · rw [if_neg hs] at hv
        exact (Option.some.inj hv).symm)
    ⟨1, by norm_num, 3, by norm_num, 0, by simp [side], 0, 7, by simp [windows, sampleAt], by simp [fileSample], by simp [XritToGrib.number]⟩

end Msat.Props
