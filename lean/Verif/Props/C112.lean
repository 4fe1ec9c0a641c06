import Verif.Lemmas.GribKeys
import Verif.Props.C44

/-
C112 What exported GRIB messages say, and what happens when the GRIB library refuses something.
-/
namespace Msat.Props
open Msat GribKeys GribKeysSpec PixelSize
open Msat.GribFile (Template templateOf)

section
variable {H D : Type} {lib : Lib H} {value : H → String → Option Val}

def timeKeys : List String :=
  ["centuryOfReferenceTimeOfData", "yearOfCentury", "year", "month", "day", "hour", "minute", "second"]
def gridKeys2 : List String := ["sourceOfGridDefinition", "numberOfDataPoints", "interpretationOfNumberOfPoints",
  "gridDefinitionTemplateNumber", "shapeOfTheEarth", "numberOfPointsAlongXAxis", "numberOfPointsAlongYAxis",
  "latitudeOfSubSatellitePointInDegrees", "longitudeOfSubSatellitePointInDegrees", "geography.dx", "geography.dy", "geography.xo",
  "geography.yo", "xCoordinateOfSubSatellitePoint", "yCoordinateOfSubSatellitePoint", "scanningMode",
  "orientationOfTheGridInDegrees", "Nr", "Xo", "Yo"]
def productKeys : List String := ["productDefinitionTemplateNumber", "parameterCategory", "parameterNumber",
  "typeOfGeneratingProcess", "generatingProcessIdentifier", "NB", "satelliteSeries", "satelliteNumber", "instrumentType",
  "scaleFactorOfCentralWaveNumber", "scaledValueOfCentralWaveNumber"]

theorem keys_time (s : Source) : KeysIn (timeOps s) timeKeys := by
  unfold timeOps
  split
  · unfold setTime
    split
    · intro k hk; simpa [Op.keys, timeKeys] using hk
    · intro k hk; simp [Op.keys] at hk
  · intro k hk; simp at hk

theorem keys_identification2 (s : Source) : KeysIn (identification2 s)
    (["centre", "subCentre", "tablesVersion", "localTablesVersion", "significanceOfReferenceTime"] ++ timeKeys ++
      ["productionStatusOfProcessedData", "typeOfProcessedData"]) :=
  (KeysIn.append (fun _ hk => hk) (keys_time s)).append fun _ hk => hk

theorem keys_product2 (s : Source) : KeysIn (product2 s) productKeys := by
  unfold product2
  refine KeysIn.both (KeysIn.of _ rfl (by decide)) ?_
  split
  · exact KeysIn.nil _
  · refine KeysIn.both (KeysIn.of ["satelliteSeries", "satelliteNumber", "instrumentType"] rfl (by decide)) ?_
    split
    · exact KeysIn.nil _
    · exact KeysIn.both (a := [_]) (KeysIn.of _ rfl (by decide))
        (KeysIn.compute fun n => KeysIn.of ["scaledValueOfCentralWaveNumber"] rfl (by decide))

theorem keys_representation2 (s : Source) (d : Scaled) :
    KeysIn (representation2 s d) ["numberOfValues", "dataRepresentationTemplateNumber"] := by
  intro k hk; simpa [representation2, Op.keys] using hk

theorem keys_bitMap (d : Scaled) : KeysIn (bitMap d) ["bitmapPresent", "missingValue"] := by
  unfold bitMap
  split
  · intro k hk; simpa [Op.keys] using hk
  · intro k hk
    simp [Op.keys] at hk
    simp [hk]

theorem keys_data (d : Scaled) : KeysIn (dataOps d) ["values"] := by
  unfold dataOps
  split
  · intro k hk; simp [Op.keys] at hk
  · intro k hk; simpa [Op.keys] using hk

/-- Parts of `always2`. -/
theorem always2_split : ∀ kv ∈ always2, kv ∈ [("discipline", (3 : ℤ))] ∨
    kv ∈ [("centre", (98 : ℤ)), ("subCentre", 0), ("tablesVersion", 4), ("localTablesVersion", 0), ("significanceOfReferenceTime", 3)] ∨
    kv ∈ [("productionStatusOfProcessedData", (0 : ℤ)), ("typeOfProcessedData", 0)] ∨
    kv ∈ [("sourceOfGridDefinition", (0 : ℤ)), ("interpretationOfNumberOfPoints", 0), ("gridDefinitionTemplateNumber", 90),
      ("shapeOfTheEarth", 2), ("scanningMode", 0), ("orientationOfTheGridInDegrees", 180), ("Nr", 6610708)] ∨
    kv ∈ [("productDefinitionTemplateNumber", (31 : ℤ)), ("parameterCategory", 0), ("parameterNumber", 0), ("typeOfGeneratingProcess", 0),
      ("generatingProcessIdentifier", 254), ("NB", 1)] ∨
    kv ∈ [("dataRepresentationTemplateNumber", (0 : ℤ))] := by decide

theorem camera : cameraHeight = 6610708 := by
  have h : ⌊orbitRadius / earthRadius * 1000000⌋ = 6610707 := by
    rw [Int.floor_eq_iff]
    unfold orbitRadius earthRadius
    constructor <;> norm_num
  unfold cameraHeight nearbyint
  rw [h, if_neg, if_pos]
  · norm_num
  · unfold orbitRadius earthRadius; norm_num
  · unfold orbitRadius earthRadius; norm_num

/-- The calls of `grid_definition_section` for a grid. -/
noncomputable def gridOps2 (s : Source) (d : Scaled) (g : Georef.Grid) : List Op :=
  [.set "sourceOfGridDefinition" (.long 0), .set "numberOfDataPoints" (.long d.values.length),
    .set "interpretationOfNumberOfPoints" (.long 0), .set "gridDefinitionTemplateNumber" (.long 90),
    .set "shapeOfTheEarth" (.long 2), .set "numberOfPointsAlongXAxis" (.long s.sx),
    .set "numberOfPointsAlongYAxis" (.long s.sy), .set "latitudeOfSubSatellitePointInDegrees" (.double 0),
    .set "longitudeOfSubSatellitePointInDegrees" (.double s.geo.lon), .set "geography.dx" (.long g.dx),
    .set "geography.dy" (.long g.dy),
    .oneOf "geography.xo" g.x0, .oneOf "geography.yo" g.y0, .set "geography.dx" (.long g.dx), .set "geography.dy" (.long g.dy),
    .set "xCoordinateOfSubSatellitePoint" (.long g.xp), .set "yCoordinateOfSubSatellitePoint" (.long g.yp),
    .set "scanningMode" (.long 0), .set "orientationOfTheGridInDegrees" (.long 180), .set "Nr" (.long cameraHeight),
    .set "Xo" (.long g.x0), .set "Yo" (.long g.y0)]

/-- A stop is not passed. -/
theorem not_stopped {o : Outcome Unit} {rest : List Op} {h h' : H} : run lib (.stop o :: rest) h ≠ .ok (some h') := by
  intro e
  rw [run] at e
  cases o <;> cases e

/-- The grid that is written is the one of `exportGrib` (C44). -/
theorem grid2_ok {s : Source} {d : Scaled} {rest : List Op} {h h' : H} (hh : s.geo.height = Georef.orbitRadiusForGdal)
    (e : run lib (grid2 s d ++ rest) h = .ok (some h')) :
    ∃ g, Georef.exportGrib s.geo = .ok (some g) ∧ g.lon = s.geo.lon ∧ grid2 s d = gridOps2 s d g := by
  unfold grid2 at e ⊢
  unfold Georef.exportGrib Georef.gridOf
  rw [if_neg (not_not.2 hh)]
  by_cases h1 : s.geo.gt.rx ≠ 0
  · rw [if_pos h1] at e; exact absurd e not_stopped
  by_cases h2 : s.geo.gt.ry ≠ 0
  · rw [if_neg h1, if_pos h2] at e; exact absurd e not_stopped
  rw [if_neg h1, if_neg h2] at e ⊢
  cases hg : Georef.gridOffset s.geo.gt with
  | none => rw [hg] at e; exact absurd e not_stopped
  | some offset =>
    rw [hg] at e
    dsimp only at e ⊢
    rw [List.append_assoc] at e
    obtain ⟨_, _, e⟩ := run_append_ok e
    obtain ⟨dx, ex⟩ := run_compute_ok e
    rw [ex] at e ⊢
    obtain ⟨dy, ey⟩ := run_compute_ok (o := seviriDYFromPixelVSize (-s.geo.gt.dy)) e
    rw [ey] at e ⊢
    simp only [compute, List.append_assoc] at e
    obtain ⟨_, _, e⟩ := run_append_ok e
    obtain ⟨x0, e0⟩ := run_compute_ok (o := toInt (nearbyint (offset + s.geo.gt.x0 / s.geo.gt.dx))) e
    rw [e0] at e ⊢
    obtain ⟨y0, e1⟩ := run_compute_ok (o := toInt (nearbyint (offset - s.geo.gt.y0 / -s.geo.gt.dy))) e
    rw [e1]
    refine ⟨_, rfl, rfl, ?_⟩
    rw [if_neg h1, if_neg h2]
    rfl

/-- What is said of the image after the grid. -/
theorem keys_after_grid2 (s : Source) (d : Scaled) : KeysIn (product2 s ++ (representation2 s d ++ (bitMap d ++ dataOps d)))
    (productKeys ++ (["numberOfValues", "dataRepresentationTemplateNumber"] ++ (["bitmapPresent", "missingValue"] ++ ["values"]))) :=
  (keys_product2 s).append ((keys_representation2 s d).append ((keys_bitMap d).append (keys_data d)))

theorem keys_gridOps2 (s : Source) (d : Scaled) (g : Georef.Grid) : KeysIn (gridOps2 s d g) gridKeys2 :=
  KeysIn.of ["sourceOfGridDefinition", "numberOfDataPoints", "interpretationOfNumberOfPoints",
  "gridDefinitionTemplateNumber", "shapeOfTheEarth", "numberOfPointsAlongXAxis", "numberOfPointsAlongYAxis",
  "latitudeOfSubSatellitePointInDegrees", "longitudeOfSubSatellitePointInDegrees", "geography.dx", "geography.dy", "geography.xo",
  "geography.yo", "geography.dx", "geography.dy", "xCoordinateOfSubSatellitePoint", "yCoordinateOfSubSatellitePoint", "scanningMode",
  "orientationOfTheGridInDegrees", "Nr", "Xo", "Yo"] rfl (by decide)

/-- Pixels that are missing. -/
noncomputable def missingPixels (s : Source) : ℕ := by
  classical exact (s.values.getD []).countP fun v => some v = s.nodata

/-- What is written for a pixel that is not missing. -/
noncomputable def measured (s : Source) (v : ℝ) : ℝ := v * s.scale + s.offset

theorem prepare_ok {s : Source} {d : Scaled} (e : prepare s = some d) :
    s.geo.height = Georef.orbitRadiusForGdal ∧ d.countMissing = missingPixels s ∧
    ∃ vs : List ℝ, s.values = some vs ∧ d.values.length = vs.length ∧
      (∀ (i : ℕ) v, vs[i]? = some v → some v ≠ s.nodata → d.values[i]? = some (measured s v)) ∧
      (∀ n, s.nodata = some n → d.missing = measured s n ∧ ∀ i : ℕ, vs[i]? = some n → d.values[i]? = some (measured s n)) := by
  unfold prepare at e
  split_ifs at e with h1 h2
  cases hv : s.values with
  | none => rw [hv] at e; cases e
  | some vs =>
    rw [hv] at e
    cases e
    refine ⟨not_not.1 h2, ?_, vs, rfl, by simp, ?_, ?_⟩
    · simp [missingPixels, hv]
    · intro i v hi hn
      simp [hi, hn, measured]
    · intro n hn
      refine ⟨by simp [hn, measured], fun i hi => ?_⟩
      simp [hi, hn, measured]

def productOps : List Op :=
  [.set "productDefinitionTemplateNumber" (.long 31), .set "parameterCategory" (.long 0), .set "parameterNumber" (.long 0),
    .set "typeOfGeneratingProcess" (.long 0), .set "generatingProcessIdentifier" (.long 254), .set "NB" (.long 1)]

def waveOps (id : ℕ) (channel : Option ℕ) : List Op :=
  match channel with
  | none => []
  | some c =>
    .set "scaleFactorOfCentralWaveNumber" (.long 0) ::
    compute (Facts.centralWaveNumber id c) fun n => [.set "scaledValueOfCentralWaveNumber" (.long (Facts.roundC n))]

def satelliteOps (s : Source) : List Op :=
  match s.spacecraft with
  | none => []
  | some id =>
    [.set "satelliteSeries" (.long 333), .set "satelliteNumber" (.long id), .set "instrumentType" (.long 207)] ++ waveOps id s.channel

theorem product2_eq (s : Source) : product2 s = productOps ++ satelliteOps s := by
  unfold product2 productOps satelliteOps waveOps
  rfl

theorem keys_wave (id : ℕ) (channel : Option ℕ) :
    KeysIn (waveOps id channel) ["scaleFactorOfCentralWaveNumber", "scaledValueOfCentralWaveNumber"] := by
  unfold waveOps
  split
  · exact KeysIn.nil _
  · exact KeysIn.both (a := [_]) (KeysIn.of _ rfl (by decide))
      (KeysIn.compute fun n => KeysIn.of ["scaledValueOfCentralWaveNumber"] rfl (by decide))

theorem keys_satellite (s : Source) : KeysIn (satelliteOps s) ["satelliteSeries", "satelliteNumber", "instrumentType",
    "scaleFactorOfCentralWaveNumber", "scaledValueOfCentralWaveNumber"] := by
  unfold satelliteOps
  split
  · exact KeysIn.nil _
  · exact KeysIn.both (KeysIn.of ["satelliteSeries", "satelliteNumber", "instrumentType"] rfl (by decide))
      ((keys_wave _ _).mono (by decide))

/-- The parts of the calls of edition 2, all of which were accepted: `r` are those after each part. -/
structure Parts2 (lib : Lib H) (s : Source) (d : Scaled) (g : Georef.Grid) (h0 h : H) : Prop where
  height : s.geo.height = Georef.orbitRadiusForGdal
  grid : Georef.exportGrib s.geo = .ok (some g)
  lon : g.lon = s.geo.lon
  steps : run lib (indicator2 ++ (identification2 s ++ (gridOps2 s d g ++ (product2 s ++ (representation2 s d ++
    (bitMap d ++ dataOps d)))))) h0 = .ok (some h)

theorem create2_ok {s : Source} {h : H} (e : create lib .wmo s = .ok (some h)) :
    ∃ d g h0, prepare s = some d ∧ Parts2 lib s d g h0 h := by
  unfold create at e
  cases hp : prepare s with
  | none => rw [hp] at e; cases lib.sample (sampleName .wmo) <;> cases e
  | some d =>
    rw [hp] at e
    cases hq : lib.sample (sampleName .wmo) with
    | none => rw [hq] at e; cases e
    | some h0 =>
      rw [hq] at e
      obtain ⟨p1, _⟩ := prepare_ok hp
      simp only [ops, ops2, List.append_assoc] at e
      obtain ⟨a1, s1, f⟩ := run_append_ok e
      obtain ⟨a2, s2, f⟩ := run_append_ok f
      obtain ⟨g, g1, g2, g3⟩ := grid2_ok p1 f
      rw [g3] at e
      exact ⟨d, g, h0, rfl, p1, g1, g2, e⟩

theorem counts2_split (sx sy missing : ℕ) (kv : String × ℤ) : kv ∈ counts2 sx sy missing ↔
    kv ∈ [("numberOfPointsAlongXAxis", (sx : ℤ)), ("numberOfPointsAlongYAxis", (sy : ℤ)), ("numberOfDataPoints", (sx * sy : ℤ))] ∨
    kv ∈ [("numberOfValues", (sx * sy - missing : ℤ))] ∨ kv ∈ [("bitmapPresent", (if missing = 0 then 0 else 1 : ℤ))] := by
  simp only [counts2, List.mem_cons, List.not_mem_nil, or_false, or_assoc]

theorem bit_said {s : Source} {d : Scaled} (hm : d.countMissing = missingPixels s) :
    ∀ kv ∈ [("bitmapPresent", (if missingPixels s = 0 then 0 else 1 : ℤ))], said (bitMap d) kv.1 = some (.long kv.2) := by
  intro kv hk
  simp only [List.mem_cons, List.not_mem_nil, or_false] at hk
  subst hk
  by_cases h : missingPixels s = 0
  · simp [bitMap, hm, h, said, Op.gives]
  · simp [bitMap, hm, h, said, Op.gives, Op.keys]

/-- C112, edition 2: a message that was made says all that the specification lists, with the grid of the georeference (C44), whatever
the library and the image are. -/
theorem C112_edition2 (hl : Keeps lib value) (s : Source) (hs : ∀ vs, s.values = some vs → vs.length = s.sx * s.sy) (h : H)
    (e : create lib .wmo s = .ok (some h)) :
    ∃ g, Georef.exportGrib s.geo = .ok (some g) ∧
      ∀ kv ∈ always2 ++ counts2 s.sx s.sy (missingPixels s) ++ place2 g, value h kv.1 = some (.long kv.2) := by
  obtain ⟨d, g, h0, hp, hparts⟩ := create2_ok e
  obtain ⟨p1, p2, vs, p3, p4, _⟩ := prepare_ok hp
  have hlen : (d.values.length : ℤ) = s.sx * s.sy := by rw [p4, hs vs p3]; push_cast; rfl
  have e := hparts.steps
  rw [identification2, product2_eq] at e
  simp only [List.append_assoc] at e
  obtain ⟨a1, s1, r1⟩ := run_append_ok e
  obtain ⟨a2, s2, r2⟩ := run_append_ok r1
  obtain ⟨a3, s3, r3⟩ := run_append_ok r2
  obtain ⟨a4, s4, r4⟩ := run_append_ok r3
  obtain ⟨a5, s5, r5⟩ := run_append_ok r4
  obtain ⟨a6, s6, r6⟩ := run_append_ok r5
  obtain ⟨a7, s7, r7⟩ := run_append_ok r6
  obtain ⟨a8, s8, r8⟩ := run_append_ok r7
  obtain ⟨a9, s9, r9⟩ := run_append_ok r8
  have k8 := (keys_bitMap d).append (keys_data d)
  have k6 := (keys_satellite s).append ((keys_representation2 s d).append k8)
  have kp : KeysIn productOps productKeys := KeysIn.of _ rfl (by decide)
  have k5 := kp.append k6
  have k4 := (keys_gridOps2 s d g).append k5
  have kid : KeysIn [Op.set "productionStatusOfProcessedData" (.long 0), Op.set "typeOfProcessedData" (.long 0)]
    ["productionStatusOfProcessedData", "typeOfProcessedData"] := fun _ hk => hk
  have k2 := (keys_time s).append (kid.append k4)
  have kid1 : KeysIn [Op.set "centre" (.long 98), Op.set "subCentre" (.long 0), Op.set "tablesVersion" (.long 4),
    Op.set "localTablesVersion" (.long 0), Op.set "significanceOfReferenceTime" (.long 3)]
    ["centre", "subCentre", "tablesVersion", "localTablesVersion", "significanceOfReferenceTime"] := fun _ hk => hk
  have k1 := kid1.append k2
  refine ⟨g, hparts.grid, fun kv hm => ?_⟩
  rw [List.mem_append, List.mem_append] at hm
  rcases hm with (hm | hm) | hm
  · rcases always2_split kv hm with hm | hm | hm | hm | hm | hm
    · exact settled hl s1 r1 (by simp [indicator2, said, Op.gives]) k1 (by decide) kv hm
    · exact settled hl s2 r2 (by simp [said, Op.keys, Op.gives]) k2 (by decide) kv hm
    · exact settled hl s4 r4 (by simp [said, Op.keys, Op.gives]) k4 (by decide) kv hm
    · exact settled hl s5 r5 (by simp [gridOps2, said, Op.keys, Op.gives, camera]) k5 (by decide) kv hm
    · exact settled hl s6 r6 (by simp [productOps, said, Op.keys, Op.gives]) k6 (by decide) kv hm
    · exact settled hl s8 r8 (by simp [representation2, said, Op.keys, Op.gives]) k8 (by decide) kv hm
  · rw [counts2_split] at hm
    rcases hm with hm | hm | hm
    · exact settled hl s5 r5 (by simp [gridOps2, said, Op.keys, Op.gives, hlen]) k5 (by simp [productKeys]) kv hm
    · exact settled hl s8 r8 (by simp [representation2, said, Op.keys, Op.gives, p2]) k8 (by simp) kv hm
    · exact settled hl s9 r9 (bit_said p2) (keys_data d) (by simp) kv hm
  · exact settled hl s5 r5 (by simp [place2, gridOps2, said, Op.keys, Op.gives]) k5 (by simp [place2]; decide) kv hm

/-- C112, edition 2: the satellite, and the wave number of the channel. -/
theorem C112_satellite2 (hl : Keeps lib value) (s : Source) (h : H) (e : create lib .wmo s = .ok (some h)) (id : ℕ)
    (hid : s.spacecraft = some id) :
    (∀ kv ∈ satellite2 id, value h kv.1 = some (.long kv.2)) ∧
    ∀ c, s.channel = some c → ∃ n, Facts.centralWaveNumber id c = .ok n ∧
      value h "scaleFactorOfCentralWaveNumber" = some (.long 0) ∧
      value h "scaledValueOfCentralWaveNumber" = some (.long (Facts.roundC n)) := by
  obtain ⟨d, g, h0, hp, hparts⟩ := create2_ok e
  have e := hparts.steps
  rw [product2_eq, satelliteOps, hid] at e
  simp only [List.append_assoc] at e
  obtain ⟨a1, s1, r1⟩ := run_append_ok e
  obtain ⟨a2, s2, r2⟩ := run_append_ok r1
  obtain ⟨a3, s3, r3⟩ := run_append_ok r2
  obtain ⟨a4, s4, r4⟩ := run_append_ok r3
  obtain ⟨a5, s5, r5⟩ := run_append_ok r4
  obtain ⟨a6, s6, r6⟩ := run_append_ok r5
  have k6 := (keys_representation2 s d).append ((keys_bitMap d).append (keys_data d))
  have k5 := (keys_wave id s.channel).append k6
  refine ⟨settled hl s5 r5 (by simp [satellite2, said, Op.keys, Op.gives]) k5 (by simp [satellite2]), fun c hc => ?_⟩
  rw [hc, waveOps] at r5
  obtain ⟨b1, t1, q1⟩ := run_cons_ok (rest := compute _ _ ++ _) r5
  obtain ⟨n, hn⟩ := run_compute_ok q1
  refine ⟨n, hn, ?_⟩
  rw [hn] at q1
  have q : run lib ([Op.set "scaleFactorOfCentralWaveNumber" (.long 0),
      Op.set "scaledValueOfCentralWaveNumber" (.long (Facts.roundC n))] ++
      (representation2 s d ++ (bitMap d ++ dataOps d))) a5 = .ok (some h) := by
    rw [hn] at r5; exact r5
  obtain ⟨b2, t2, q2⟩ := run_append_ok q
  have := settled hl t2 q2 (L := [("scaleFactorOfCentralWaveNumber", 0), ("scaledValueOfCentralWaveNumber", Facts.roundC n)])
    (by simp [said, Op.keys, Op.gives]) k6 (by simp)
  exact ⟨this (_, _) (List.mem_cons_self ..), this (_, _) (List.mem_cons_of_mem _ (List.mem_cons_self ..))⟩

/-- The last calls of all templates. -/
theorem data_ok (hl : Keeps lib value) {s : Source} {d : Scaled} (hp : prepare s = some d) {h0 h : H}
    (e : run lib (bitMap d ++ dataOps d) h0 = .ok (some h)) :
    ∃ vs : List ℝ, s.values = some vs ∧ missingPixels s ≠ vs.length ∧
      (∃ out, value h "values" = some (.array out) ∧ out.length = vs.length ∧
        (∀ (i : ℕ) v, vs[i]? = some v → some v ≠ s.nodata → out[i]? = some (measured s v)) ∧
        (∀ n, s.nodata = some n → ∀ i : ℕ, vs[i]? = some n → out[i]? = some (measured s n))) ∧
      (missingPixels s ≠ 0 → ∃ n, s.nodata = some n ∧ value h "missingValue" = some (.double (measured s n))) := by
  obtain ⟨p1, p2, vs, p3, p4, p5, p6⟩ := prepare_ok hp
  obtain ⟨a, s1, r1⟩ := run_append_ok e
  have hne : ¬ d.countMissing = d.values.length := by
    intro he
    rw [dataOps, if_pos he] at r1
    exact not_stopped r1
  refine ⟨vs, p3, by rw [← p2, ← p4]; exact hne, ⟨d.values, ?_, p4, p5, fun n hn => (p6 n hn).2⟩, fun hm => ?_⟩
  · rw [dataOps, if_neg hne] at r1
    exact run_said hl r1 (by simp [said, Op.gives])
  · have hn : ∃ n, s.nodata = some n := by
      cases hn : s.nodata with
      | some n => exact ⟨n, rfl⟩
      | none =>
        exfalso
        apply hm
        simp [missingPixels, hn]
    obtain ⟨n, hn⟩ := hn
    refine ⟨n, hn, ?_⟩
    rw [run_keeps hl r1 (fun hk => absurd (keys_data d _ hk) (by simp)), ← (p6 n hn).1]
    rw [bitMap, if_pos (by rw [p2]; exact hm)] at s1
    exact run_said hl s1 (by simp [said, Op.keys, Op.gives])

/-- The parts of the calls of edition 1. -/
noncomputable def gridOps1 (s : Source) (g : Georef.Grid) : List Op :=
  [.set "numberOfVerticalCoordinateValues" (.long 0), .set "pvlLocation" (.long 255), .set "dataRepresentationType" (.long 90),
    .set "numberOfPointsAlongXAxis" (.long s.sx), .set "numberOfPointsAlongYAxis" (.long s.sy),
    .set "latitudeOfSubSatellitePointInDegrees" (.double 0), .set "longitudeOfSubSatellitePointInDegrees" (.double s.geo.lon),
    .set "resolutionAndComponentFlags" (.long 64),
    .set "geography.dx" (.long g.dx), .set "geography.dy" (.long g.dy), .set "XpInGridLengths" (.long g.xp),
    .set "YpInGridLengths" (.long g.yp), .set "scanningMode" (.long 0), .set "orientationOfTheGridInDegrees" (.long 180),
    .set cameraKey (.long cameraHeight), .set "Xo" (.long g.x0), .set "Yo" (.long g.y0)]

theorem grid1_ok {s : Source} {rest : List Op} {h h' : H} (hh : s.geo.height = Georef.orbitRadiusForGdal)
    (e : run lib (grid1 s ++ rest) h = .ok (some h')) :
    ∃ g, Georef.exportGrib s.geo = .ok (some g) ∧ g.lon = s.geo.lon ∧ grid1 s = gridOps1 s g := by
  unfold grid1 at e ⊢
  unfold Georef.exportGrib Georef.gridOf
  rw [if_neg (not_not.2 hh)]
  by_cases h1 : s.geo.gt.rx ≠ 0
  · rw [if_pos h1] at e; exact absurd e not_stopped
  by_cases h2 : s.geo.gt.ry ≠ 0
  · rw [if_neg h1, if_pos h2] at e; exact absurd e not_stopped
  rw [if_neg h1, if_neg h2] at e ⊢
  cases hg : Georef.gridOffset s.geo.gt with
  | none => rw [hg] at e; exact absurd e not_stopped
  | some offset =>
    rw [hg] at e
    dsimp only at e ⊢
    rw [List.append_assoc] at e
    obtain ⟨_, _, e⟩ := run_append_ok e
    obtain ⟨dx, ex⟩ := run_compute_ok e
    rw [ex] at e ⊢
    obtain ⟨dy, ey⟩ := run_compute_ok (o := seviriDYFromPixelVSize (-s.geo.gt.dy)) e
    rw [ey] at e ⊢
    simp only [compute, List.append_assoc] at e
    obtain ⟨_, _, e⟩ := run_append_ok e
    obtain ⟨x0, e0⟩ := run_compute_ok (o := toInt (nearbyint (offset + s.geo.gt.x0 / s.geo.gt.dx))) e
    rw [e0] at e ⊢
    obtain ⟨y0, e1⟩ := run_compute_ok (o := toInt (nearbyint (offset - s.geo.gt.y0 / -s.geo.gt.dy))) e
    rw [e1]
    refine ⟨_, rfl, rfl, ?_⟩
    rw [if_neg h1, if_neg h2]
    rfl

/-- What the templates of edition 1 say of themselves. -/
def localOps : Template → Source → List Op
  | .ecmwf, s => [.set "localDefinitionNumber" (.long 24)] ++
    ((match s.spacecraft with
    | some id => [.set "satelliteIdentifier" (.long id), .set "instrumentIdentifier" (.long 207)]
    | none => []) ++
    ((match s.channel with
    | some c => [.set "channelNumber" (.long c)]
    | none => []) ++
    [.set "functionCode" (.long 1)]))
  | _, _ => []

def localKeys : List String :=
  ["localDefinitionNumber", "satelliteIdentifier", "instrumentIdentifier", "channelNumber", "functionCode"]

theorem keys_local (t : Template) (s : Source) : KeysIn (localOps t s) localKeys := by
  cases t
  · exact KeysIn.nil _
  · refine KeysIn.both (KeysIn.of _ rfl (by decide)) (KeysIn.both ?_ (KeysIn.both ?_ (KeysIn.of _ rfl (by decide))))
    · split
      · exact KeysIn.of ["satelliteIdentifier", "instrumentIdentifier"] rfl (by decide)
      · exact KeysIn.nil _
    · split
      · exact KeysIn.of ["channelNumber"] rfl (by decide)
      · exact KeysIn.nil _
  · exact KeysIn.nil _

def levelOps (s : Source) : List Op :=
  match s.spacecraft with
  | some id => [.set "indicatorOfTypeOfLevel" (.long id)]
  | none => []

def channelOps (s : Source) : List Op :=
  match s.channel with
  | some c => [.set "level" (.long c)]
  | none => []

theorem keys_level (s : Source) : KeysIn (levelOps s) ["indicatorOfTypeOfLevel"] := by
  unfold levelOps
  split
  · exact fun _ hk => hk
  · exact KeysIn.nil _

theorem keys_channel (s : Source) : KeysIn (channelOps s) ["level"] := by
  unfold channelOps
  split
  · exact fun _ hk => hk
  · exact KeysIn.nil _

def startOps1 : List Op := [.set "centre" (.long 98), .set "generatingProcessIdentifier" (.long 254),
  .set "gridDefinition" (.long 255), .set "indicatorOfParameter" (.long 127)]

def rangeOps1 : List Op := [.set "indicatorOfUnitOfTimeRange" (.long 0), .set "timeRangeIndicator" (.long 0),
  .set "numberIncludedInAverage" (.long 0), .set "numberMissingFromAveragesOrAccumulations" (.long 0), .set "subCentre" (.long 0)]

theorem create1_ok {t : Template} (ht : t ≠ .wmo) {s : Source} {h : H} (e : create lib t s = .ok (some h)) :
    ∃ d g h0, prepare s = some d ∧ Georef.exportGrib s.geo = .ok (some g) ∧ g.lon = s.geo.lon ∧
      run lib (startOps1 ++ (levelOps s ++ (channelOps s ++ (timeOps s ++ (rangeOps1 ++ (localOps t s ++ (gridOps1 s g ++
        (bitMap d ++ dataOps d)))))))) h0 = .ok (some h) := by
  unfold create at e
  cases hp : prepare s with
  | none => rw [hp] at e; cases lib.sample (sampleName t) <;> cases e
  | some d =>
    rw [hp] at e
    cases hq : lib.sample (sampleName t) with
    | none => rw [hq] at e; cases e
    | some h0 =>
      rw [hq] at e
      obtain ⟨p1, _⟩ := prepare_ok hp
      have he : ops t s d = startOps1 ++ (levelOps s ++ (channelOps s ++ (timeOps s ++ (rangeOps1 ++ (localOps t s ++ (grid1 s ++
        (bitMap d ++ dataOps d))))))) := by
        cases t with
        | wmo => exact absurd rfl ht
        | ecmwf =>
          simp only [ops, ops1, identificationECMWF, identification1, List.append_assoc, localOps]
          rfl
        | msat =>
          simp only [ops, ops1, identification1, List.append_assoc, localOps, List.nil_append]
          rfl
      dsimp only at e
      rw [he] at e
      obtain ⟨a1, s1, f⟩ := run_append_ok e
      obtain ⟨a2, s2, f⟩ := run_append_ok f
      obtain ⟨a3, s3, f⟩ := run_append_ok f
      obtain ⟨a4, s4, f⟩ := run_append_ok f
      obtain ⟨a5, s5, f⟩ := run_append_ok f
      obtain ⟨a6, s6, f⟩ := run_append_ok f
      obtain ⟨g, g1, g2, g3⟩ := grid1_ok p1 f
      rw [g3] at e
      exact ⟨d, g, h0, rfl, g1, g2, e⟩

def gridKeys1 : List String := ["numberOfVerticalCoordinateValues", "pvlLocation", "dataRepresentationType",
  "numberOfPointsAlongXAxis", "numberOfPointsAlongYAxis", "latitudeOfSubSatellitePointInDegrees",
  "longitudeOfSubSatellitePointInDegrees", "resolutionAndComponentFlags", "geography.dx", "geography.dy", "XpInGridLengths",
  "YpInGridLengths", "scanningMode", "orientationOfTheGridInDegrees",
  "altitudeOfTheCameraFromTheEarthsCentreMeasuredInUnitsOfTheEarthsRadius", "Xo", "Yo"]

theorem always1_split : ∀ kv ∈ always1,
    kv ∈ [("centre", (98 : ℤ)), ("generatingProcessIdentifier", 254), ("gridDefinition", 255), ("indicatorOfParameter", 127)] ∨
    kv ∈ [("indicatorOfUnitOfTimeRange", (0 : ℤ)), ("timeRangeIndicator", 0), ("numberIncludedInAverage", 0),
      ("numberMissingFromAveragesOrAccumulations", 0), ("subCentre", 0)] ∨
    kv ∈ [("numberOfVerticalCoordinateValues", (0 : ℤ)), ("pvlLocation", 255), ("dataRepresentationType", 90),
      ("resolutionAndComponentFlags", 64), ("scanningMode", 0), ("orientationOfTheGridInDegrees", 180),
      ("altitudeOfTheCameraFromTheEarthsCentreMeasuredInUnitsOfTheEarthsRadius", 6610708)] := by decide

theorem counts1_split (sx sy missing : ℕ) (kv : String × ℤ) : kv ∈ counts1 sx sy missing ↔
    kv ∈ [("numberOfPointsAlongXAxis", (sx : ℤ)), ("numberOfPointsAlongYAxis", (sy : ℤ))] ∨
    kv ∈ [("bitmapPresent", (if missing = 0 then 0 else 1 : ℤ))] := by
  simp only [counts1, List.mem_cons, List.not_mem_nil, or_false, or_assoc]

/-- C112, edition 1: a message that was made says all that the specification lists. -/
theorem C112_edition1 (hl : Keeps lib value) (t : Template) (ht : t ≠ .wmo) (s : Source) (h : H)
    (e : create lib t s = .ok (some h)) :
    ∃ g, Georef.exportGrib s.geo = .ok (some g) ∧
      (∀ kv ∈ always1 ++ counts1 s.sx s.sy (missingPixels s) ++ place1 g, value h kv.1 = some (.long kv.2)) ∧
      (∀ c, s.channel = some c → value h "level" = some (.long c)) ∧
      (∀ id, s.spacecraft = some id → value h "indicatorOfTypeOfLevel" = some (.long id)) ∧
      (t = .ecmwf → (∀ kv ∈ localECMWF, value h kv.1 = some (.long kv.2)) ∧
        (∀ c, s.channel = some c → value h "channelNumber" = some (.long c)) ∧
        ∀ id, s.spacecraft = some id → ∀ kv ∈ satelliteECMWF id, value h kv.1 = some (.long kv.2)) := by
  obtain ⟨d, g, h0, hp, hg, _, e⟩ := create1_ok ht e
  obtain ⟨p1, p2, vs, p3, p4, _⟩ := prepare_ok hp
  obtain ⟨a1, s1, r1⟩ := run_append_ok e
  obtain ⟨a2, s2, r2⟩ := run_append_ok r1
  obtain ⟨a3, s3, r3⟩ := run_append_ok r2
  obtain ⟨a4, s4, r4⟩ := run_append_ok r3
  obtain ⟨a5, s5, r5⟩ := run_append_ok r4
  obtain ⟨a6, s6, r6⟩ := run_append_ok r5
  obtain ⟨a7, s7, r7⟩ := run_append_ok r6
  obtain ⟨a8, s8, r8⟩ := run_append_ok r7
  have k7 := (keys_bitMap d).append (keys_data d)
  have kg : KeysIn (gridOps1 s g) gridKeys1 := fun _ hk => hk
  have k6 := kg.append k7
  have k5 := (keys_local t s).append k6
  have kr : KeysIn rangeOps1 ["indicatorOfUnitOfTimeRange", "timeRangeIndicator", "numberIncludedInAverage",
    "numberMissingFromAveragesOrAccumulations", "subCentre"] := fun _ hk => hk
  have k3 := (keys_time s).append (kr.append k5)
  have k2 := (keys_channel s).append k3
  have k1 := (keys_level s).append k2
  have hlevel : ∀ id, s.spacecraft = some id → value h "indicatorOfTypeOfLevel" = some (.long id) := by
    intro id hid
    rw [levelOps, hid] at s2
    exact settled hl (L := [("indicatorOfTypeOfLevel", (id : ℤ))]) s2 r2 (by simp [said, Op.gives]) k2 (by simp; decide) (_, _)
      (List.mem_cons_self ..)
  refine ⟨g, hg, fun kv hm => ?_, fun c hc => ?_, hlevel, ?_⟩
  · rw [List.mem_append, List.mem_append] at hm
    rcases hm with (hm | hm) | hm
    · rcases always1_split kv hm with hm | hm | hm
      · exact settled hl s1 r1 (by simp [startOps1, said, Op.keys, Op.gives]) k1 (by decide) kv hm
      · exact settled hl s5 r5 (by simp [rangeOps1, said, Op.keys, Op.gives]) k5 (by decide) kv hm
      · exact settled hl s7 r7 (by simp [gridOps1, said, Op.keys, Op.gives, camera, cameraKey]) k7 (by decide) kv hm
    · rw [counts1_split] at hm
      rcases hm with hm | hm
      · exact settled hl s7 r7 (by simp [gridOps1, said, Op.keys, Op.gives, cameraKey]) k7 (by simp) kv hm
      · exact settled hl s8 r8 (bit_said p2) (keys_data d) (by simp) kv hm
    · exact settled hl s7 r7 (by simp [place1, gridOps1, said, Op.keys, Op.gives, cameraKey]) k7 (by simp [place1]) kv hm
  · rw [channelOps, hc] at s3
    exact settled hl (L := [("level", (c : ℤ))]) s3 r3 (by simp [said, Op.gives]) k3 (by simp; decide) (_, _)
      (List.mem_cons_self ..)
  · intro he
    subst he
    simp only [localOps, List.append_assoc] at r5
    obtain ⟨b1, t1, q1⟩ := run_append_ok r5
    obtain ⟨b2, t2, q2⟩ := run_append_ok q1
    obtain ⟨b3, t3, q3⟩ := run_append_ok q2
    obtain ⟨b4, t4, q4⟩ := run_append_ok q3
    have kf : KeysIn [Op.set "functionCode" (.long 1)] ["functionCode"] := fun _ hk => hk
    have j3 := kf.append k6
    have kc : KeysIn (match s.channel with
      | some c => [Op.set "channelNumber" (.long (c : ℤ))]
      | none => []) ["channelNumber"] := by
      split
      · exact fun _ hk => hk
      · exact KeysIn.nil _
    have j2 := kc.append j3
    have ks : KeysIn (match s.spacecraft with
      | some id => [Op.set "satelliteIdentifier" (.long (id : ℤ)), Op.set "instrumentIdentifier" (.long 207)]
      | none => []) ["satelliteIdentifier", "instrumentIdentifier"] := by
      split
      · exact fun _ hk => hk
      · exact KeysIn.nil _
    have j1 := ks.append j2
    refine ⟨?_, fun c hc => ?_, fun id hid => ?_⟩
    · have x1 := settled hl (L := [("localDefinitionNumber", (24 : ℤ))]) t1 q1 (by simp [said, Op.gives]) j1 (by decide)
      have x2 := settled hl (L := [("functionCode", (1 : ℤ))]) t4 q4 (by simp [said, Op.gives]) k6 (by decide)
      intro kv hm
      simp only [localECMWF, List.mem_cons, List.not_mem_nil, or_false] at hm
      rcases hm with rfl | rfl
      · exact x1 _ (by simp)
      · exact x2 _ (by simp)
    · rw [hc] at t3
      exact settled hl (L := [("channelNumber", (c : ℤ))]) t3 q3 (by simp [said, Op.gives]) j3 (by simp; decide) (_, _)
        (List.mem_cons_self ..)
    · rw [hid] at t2
      have x := settled hl (L := [("satelliteIdentifier", (id : ℤ)), ("instrumentIdentifier", 207)]) t2 q2
        (by simp [said, Op.gives, Op.keys]) j2 (by simp; decide)
      intro kv hm
      simp only [satelliteECMWF, List.mem_cons, List.not_mem_nil, or_false] at hm
      rcases hm with rfl | rfl | rfl
      · exact hlevel id hid
      · exact x _ (by simp)
      · exact x _ (by simp)

/-- C112, all templates: the values are those of the pixels, scaled; missing pixels have the missing value, which the message says; an
image of which all pixels are missing is not exported. -/
theorem C112_values (hl : Keeps lib value) (t : Template) (s : Source) (h : H) (e : create lib t s = .ok (some h)) :
    ∃ vs : List ℝ, s.values = some vs ∧ missingPixels s ≠ vs.length ∧
      (∃ out, value h "values" = some (.array out) ∧ out.length = vs.length ∧
        (∀ (i : ℕ) v, vs[i]? = some v → some v ≠ s.nodata → out[i]? = some (measured s v)) ∧
        (∀ n, s.nodata = some n → ∀ i : ℕ, vs[i]? = some n → out[i]? = some (measured s n))) ∧
      (missingPixels s ≠ 0 → ∃ n, s.nodata = some n ∧ value h "missingValue" = some (.double (measured s n))) := by
  by_cases ht : t = .wmo
  · subst ht
    obtain ⟨d, g, h0, hp, hparts⟩ := create2_ok e
    obtain ⟨_, _, r⟩ := run_append_ok hparts.steps
    obtain ⟨_, _, r⟩ := run_append_ok r
    obtain ⟨_, _, r⟩ := run_append_ok r
    obtain ⟨_, _, r⟩ := run_append_ok r
    obtain ⟨_, _, r⟩ := run_append_ok r
    exact data_ok hl hp r
  · obtain ⟨d, g, h0, hp, _, _, r⟩ := create1_ok ht e
    obtain ⟨_, _, r⟩ := run_append_ok r
    obtain ⟨_, _, r⟩ := run_append_ok r
    obtain ⟨_, _, r⟩ := run_append_ok r
    obtain ⟨_, _, r⟩ := run_append_ok r
    obtain ⟨_, _, r⟩ := run_append_ok r
    obtain ⟨_, _, r⟩ := run_append_ok r
    obtain ⟨_, _, r⟩ := run_append_ok r
    exact data_ok hl hp r

/-- C112, all templates: the satellite is above the equator, at the longitude of the projection. -/
theorem C112_longitude (hl : Keeps lib value) (t : Template) (s : Source) (h : H) (e : create lib t s = .ok (some h)) :
    value h "latitudeOfSubSatellitePointInDegrees" = some (.double 0) ∧
    value h "longitudeOfSubSatellitePointInDegrees" = some (.double s.geo.lon) := by
  by_cases ht : t = .wmo
  · subst ht
    obtain ⟨d, g, h0, hp, hparts⟩ := create2_ok e
    obtain ⟨_, _, r⟩ := run_append_ok hparts.steps
    obtain ⟨_, _, r⟩ := run_append_ok r
    obtain ⟨_, q, r⟩ := run_append_ok r
    have k := keys_after_grid2 s d
    constructor
    · rw [run_keeps hl r (fun hk => absurd (k _ hk) (by decide))]
      exact run_said hl q (by simp [gridOps2, said, Op.keys, Op.gives])
    · rw [run_keeps hl r (fun hk => absurd (k _ hk) (by decide))]
      exact run_said hl q (by simp [gridOps2, said, Op.keys, Op.gives])
  · obtain ⟨d, g, h0, hp, _, _, r⟩ := create1_ok ht e
    obtain ⟨_, _, r⟩ := run_append_ok r
    obtain ⟨_, _, r⟩ := run_append_ok r
    obtain ⟨_, _, r⟩ := run_append_ok r
    obtain ⟨_, _, r⟩ := run_append_ok r
    obtain ⟨_, _, r⟩ := run_append_ok r
    obtain ⟨_, _, r⟩ := run_append_ok r
    obtain ⟨_, q, r⟩ := run_append_ok r
    have k := (keys_bitMap d).append (keys_data d)
    constructor
    · rw [run_keeps hl r (fun hk => absurd (k _ hk) (by decide))]
      exact run_said hl q (by simp [gridOps1, said, Op.keys, Op.gives, cameraKey])
    · rw [run_keeps hl r (fun hk => absurd (k _ hk) (by decide))]
      exact run_said hl q (by simp [gridOps1, said, Op.keys, Op.gives, cameraKey])

theorem time_ok (hl : Keeps lib value) {buf : Bytes} {h0 h : H} (e : run lib (setTime buf) h0 = .ok (some h)) :
    ∃ year month day hour minute second, Text.scanf Datetime.stampFormat buf = [year, month, day, hour, minute, second] ∧
      value h "month" = some (.long month) ∧ value h "day" = some (.long day) ∧ value h "hour" = some (.long hour) ∧
      value h "minute" = some (.long minute) ∧
      (lib.get h0 "editionNumber" = some 2 → value h "year" = some (.long year)) ∧
      (lib.get h0 "editionNumber" = some 1 → value h "centuryOfReferenceTimeOfData" = some (.long (year.tdiv 100 + 1)) ∧
        value h "yearOfCentury" = some (.long (year.tmod 100))) := by
  unfold setTime at e
  split at e
  · rename_i year month day hour minute second hs
    refine ⟨year, month, day, hour, minute, second, hs, ?_, ?_, ?_, ?_, fun hg => ?_, fun hg => ?_⟩
    · exact run_said hl e (by simp [said, Op.keys, Op.gives])
    · exact run_said hl e (by simp [said, Op.keys, Op.gives])
    · exact run_said hl e (by simp [said, Op.keys, Op.gives])
    · exact run_said hl e (by simp [said, Op.keys, Op.gives])
    · obtain ⟨h1, e1, e2⟩ := run_cons_ok e
      rw [run_keeps hl e2 (by simp [Op.keys])]
      rw [run, hg] at e1
      simp only [setAll] at e1
      by_cases ho : (lib.set h0 "year" (.long year)).2 = true
      · simp [ho, run] at e1
        subst e1
        exact hl.same _ _ _ ho
      · simp [ho] at e1
    · obtain ⟨h1, e1, e2⟩ := run_cons_ok e
      rw [run_keeps hl e2 (by simp [Op.keys]), run_keeps hl e2 (by simp [Op.keys])]
      rw [run, hg] at e1
      simp only [setAll] at e1
      by_cases ho : (lib.set h0 "centuryOfReferenceTimeOfData" (.long (year.tdiv 100 + 1))).2 = true
      · by_cases ho' : (lib.set (lib.set h0 "centuryOfReferenceTimeOfData" (.long (year.tdiv 100 + 1))).1 "yearOfCentury"
          (.long (year.tmod 100))).2 = true
        · simp [ho, ho', run] at e1
          subst e1
          refine ⟨?_, hl.same _ _ _ ho'⟩
          rw [hl.others _ _ _ _ (by decide)]
          exact hl.same _ _ _ ho
        · simp [ho, ho'] at e1
      · simp [ho] at e1
  · obtain ⟨h1, _, e2⟩ := run_cons_ok e
    exact absurd e2 not_stopped

/-- C112, all templates: the time of the image, if it has one: the year in edition 2, the century and the year in edition 1.  (Seconds
are not written if the library refuses them: C45.) -/
theorem C112_time (hl : Keeps lib value) (t : Template) (hed : ∀ h, lib.get h "editionNumber" = some (if t = .wmo then 2 else 1))
    (s : Source) (h : H) (e : create lib t s = .ok (some h)) (buf : Bytes) (hb : s.datetime = some buf) :
    ∃ year month day hour minute second, Text.scanf Datetime.stampFormat buf = [year, month, day, hour, minute, second] ∧
      value h "month" = some (.long month) ∧ value h "day" = some (.long day) ∧ value h "hour" = some (.long hour) ∧
      value h "minute" = some (.long minute) ∧
      (t = .wmo → value h "year" = some (.long year)) ∧
      (t ≠ .wmo → value h "centuryOfReferenceTimeOfData" = some (.long (year.tdiv 100 + 1)) ∧
        value h "yearOfCentury" = some (.long (year.tmod 100))) := by
  suffices main : ∃ (rest : List Op) (ks : List String) (h0 : H), KeysIn rest ks ∧ (∀ k ∈ timeKeys, k ∉ ks) ∧
      run lib (timeOps s ++ rest) h0 = .ok (some h) by
    obtain ⟨rest, ks, h0, hk, hd, er⟩ := main
    rw [timeOps, hb] at er
    obtain ⟨h1, e1, e2⟩ := run_append_ok er
    obtain ⟨year, month, day, hour, minute, second, hs, t1, t2, t3, t4, t5, t6⟩ := time_ok hl e1
    have keep : ∀ k ∈ timeKeys, value h k = value h1 k := fun k hm => run_keeps hl e2 (fun hm' => hd k hm (hk k hm'))
    refine ⟨year, month, day, hour, minute, second, hs, ?_, ?_, ?_, ?_, fun ht => ?_, fun ht => ?_⟩
    · rw [keep _ (by decide)]; exact t1
    · rw [keep _ (by decide)]; exact t2
    · rw [keep _ (by decide)]; exact t3
    · rw [keep _ (by decide)]; exact t4
    · rw [keep _ (by decide)]; exact t5 (by rw [hed, if_pos ht])
    · rw [keep _ (by decide), keep _ (by decide)]; exact t6 (by rw [hed, if_neg ht])
  by_cases ht : t = .wmo
  · subst ht
    obtain ⟨d, g, h0, hp, hparts⟩ := create2_ok e
    have r := hparts.steps
    simp only [identification2, List.append_assoc] at r
    obtain ⟨_, _, r⟩ := run_append_ok r
    obtain ⟨_, _, r⟩ := run_append_ok r
    have kid : KeysIn [Op.set "productionStatusOfProcessedData" (.long 0), Op.set "typeOfProcessedData" (.long 0)]
      ["productionStatusOfProcessedData", "typeOfProcessedData"] := fun _ hk => hk
    exact ⟨_, _, _, kid.append ((keys_gridOps2 s d g).append (keys_after_grid2 s d)), by decide, r⟩
  · obtain ⟨d, g, h0, hp, _, _, r⟩ := create1_ok ht e
    obtain ⟨_, _, r⟩ := run_append_ok r
    obtain ⟨_, _, r⟩ := run_append_ok r
    obtain ⟨_, _, r⟩ := run_append_ok r
    have kg : KeysIn (gridOps1 s g) gridKeys1 := fun _ hk => hk
    have kr : KeysIn rangeOps1 ["indicatorOfUnitOfTimeRange", "timeRangeIndicator", "numberIncludedInAverage",
      "numberMissingFromAveragesOrAccumulations", "subCentre"] := fun _ hk => hk
    exact ⟨_, _, _, kr.append ((keys_local t s).append (kg.append ((keys_bitMap d).append (keys_data d)))), by decide, r⟩

/-- C112: a value that the library refuses, whichever it is, ends the export: the null pointer is returned and the file is as it was. -/
theorem C112_refused (lib : Lib H) (opened : Option Bytes → Option D) (option : Option String) (t : Template)
    (ht : templateOf option = some t) (writable : Bool) (room : Nat) (old : Option Bytes) (s : Source) (d : Scaled)
    (hd : prepare s = some d) (h0 : H) (hs : lib.sample (sampleName t) = some h0)
    (before after : List Op) (k : String) (v : Val) (hops : ops t s d = before ++ .set k v :: after) (h : H)
    (hb : run lib before h0 = .ok (some h)) (hr : (lib.set h k v).2 = false) :
    createCopy lib opened option writable room old s = .ok (none, old) := by
  have : create lib t s = .ok none := by
    unfold create
    rw [hs, hd]
    show run lib (ops t s d) h0 = .ok none
    rw [hops, run_append hb, run]
    simp [hr]
  unfold createCopy
  rw [ht]
  dsimp only
  rw [this]
  rfl

/-- C112: the file changes only if a message was made, of which the library accepted everything, and then has its bytes, as many as there
was room for. -/
theorem C112_file (lib : Lib H) (opened : Option Bytes → Option D) (option : Option String) (writable : Bool) (room : Nat)
    (old : Option Bytes) (s : Source) (r : Option D) (file : Option Bytes)
    (e : createCopy lib opened option writable room old s = .ok (r, file)) :
    (r = none ∧ file = old) ∨ ∃ t h, templateOf option = some t ∧ create lib t s = .ok (some h) ∧ r = opened file ∧
      (file = old ∨ ∃ m, lib.message h = some m ∧ file = some (m.take room)) := by
  unfold createCopy at e
  cases ht : templateOf option with
  | none => rw [ht] at e; cases e; exact .inl ⟨rfl, rfl⟩
  | some t =>
    rw [ht] at e
    dsimp only at e
    obtain ⟨o, e1, e2⟩ := Outcome.of_bind_ok e
    cases o with
    | none => cases e2; exact .inl ⟨rfl, rfl⟩
    | some h =>
      cases e2
      refine .inr ⟨t, h, rfl, e1, rfl, ?_⟩
      cases hm : lib.message h with
      | none => exact .inl rfl
      | some m =>
        by_cases hw : writable = true
        · exact .inr ⟨m, rfl, by simp [write, hw]⟩
        · exact .inl (by simp [write, hw])

/-! ### What goes wrong -/

/-- Calls that are not the end of the export, to a library that accepts their keys. -/
theorem run_goes {l : List Op} (hed : ∀ h, lib.get h "editionNumber" = some 1 ∨ lib.get h "editionNumber" = some 2)
    (hs : ∀ op ∈ l, ∀ o, op ≠ .stop o) (hk : ∀ k ∈ l.flatMap Op.keys, ∀ h v, (lib.set h k v).2 = true) (h : H) :
    ∃ h', run lib l h = .ok (some h') := by
  have all : ∀ (m : List (String × ℤ)), (∀ k ∈ m.map Prod.fst, ∀ h v, (lib.set h k v).2 = true) → ∀ h, ∃ h', setAll lib m h = some h' := by
    intro m
    induction m with
    | nil => exact fun _ h => ⟨h, rfl⟩
    | cons x xs ih =>
      obtain ⟨k, v⟩ := x
      intro hm h
      obtain ⟨h', e⟩ := ih (fun k hk => hm k (by simp at hk ⊢; exact .inr hk)) (lib.set h k (.long v)).1
      refine ⟨h', ?_⟩
      rw [setAll]
      dsimp only
      rw [if_pos (hm k (by simp) _ _)]
      exact e
  induction l generalizing h with
  | nil => exact ⟨h, rfl⟩
  | cons op rest ih =>
    have go := ih (fun op ho => hs op (List.mem_cons_of_mem _ ho)) (fun k h' => hk k (by
      rw [List.flatMap_cons]; exact List.mem_append_right _ h'))
    have here : ∀ k ∈ op.keys, ∀ h v, (lib.set h k v).2 = true := fun k h' => hk k (by
      rw [List.flatMap_cons]; exact List.mem_append_left _ h')
    cases op with
    | set k v =>
      rw [run]
      dsimp only
      rw [if_pos (here k (by simp [Op.keys]) _ _)]
      exact go _
    | trySet k v => rw [run]; exact go _
    | oneOf k v =>
      rw [run]
      dsimp only
      rw [if_pos (here k (by simp [Op.keys]) _ _)]
      exact go _
    | edition a b =>
      obtain ⟨h1, e1⟩ := all a (fun k hm => here k (List.mem_append_left _ hm)) h
      obtain ⟨h2, e2⟩ := all b (fun k hm => here k (List.mem_append_right _ hm)) h
      rcases hed h with g | g
      · obtain ⟨h', e⟩ := go h1
        refine ⟨h', ?_⟩
        rw [run, g]
        simpa [e1] using e
      · obtain ⟨h', e⟩ := go h2
        refine ⟨h', ?_⟩
        rw [run, g]
        simpa [e2] using e
    | stop o => exact absurd rfl (hs _ (List.mem_cons_self ..) o)

/-- A time that can be written. -/
def Timed (s : Source) : Prop := ∀ buf, s.datetime = some buf → (Text.scanf Datetime.stampFormat buf).length = 6

theorem time_goes {s : Source} (ht : Timed s) : ∀ op ∈ timeOps s, ∀ o, op ≠ .stop o := by
  intro op hop o
  unfold timeOps at hop
  split at hop
  · rename_i buf hb
    have hl := ht buf hb
    unfold setTime at hop
    split at hop
    · simp at hop
      rcases hop with rfl | rfl | rfl | rfl | rfl | rfl <;> exact fun h => by cases h
    · rename_i hne
      exfalso
      match hx : Text.scanf Datetime.stampFormat buf, hl with
      | [a, b, c, d, e, f], _ => exact hne _ _ _ _ _ _ hx
  · cases hop

/-- The grid that can be exported (C44) is the one that is written. -/
theorem grid_of {s : Source} {g : Georef.Grid} (e : Georef.exportGrib s.geo = .ok (some g)) :
    (∀ d, grid2 s d = gridOps2 s d g) ∧ grid1 s = gridOps1 s g := by
  unfold Georef.exportGrib Georef.gridOf at e
  split at e
  · cases e
  split at e
  · cases e
  rename_i h1
  split at e
  · cases e
  rename_i h2
  cases hg : Georef.gridOffset s.geo.gt with
  | none => rw [hg] at e; cases e
  | some offset =>
    rw [hg] at e
    dsimp only at e
    obtain ⟨dx, ex, e⟩ := Outcome.of_bind_ok e
    obtain ⟨dy, ey, e⟩ := Outcome.of_bind_ok e
    obtain ⟨x0, e0, e⟩ := Outcome.of_bind_ok e
    obtain ⟨y0, e1, e⟩ := Outcome.of_bind_ok e
    cases e
    constructor
    · intro d
      unfold grid2
      rw [if_neg h1, if_neg h2, hg]
      dsimp only
      rw [ex, ey]
      simp only [compute]
      rw [e0, e1]
      rfl
    · unfold grid1
      rw [if_neg h1, if_neg h2, hg]
      dsimp only
      rw [ex, ey]
      simp only [compute]
      rw [e0, e1]
      rfl

/-- Discrepancy: the first of the two keys that may have the position of the image is refused, and the export does not try the second
one: its value is taken from the arguments with another type than it has, for every image that can be exported. -/
theorem C112_violated_first_key (opened : Option Bytes → Option D) (option : Option String) (ht : templateOf option = some .wmo)
    (writable : Bool) (room : Nat) (old : Option Bytes) (s : Source) (d : Scaled) (hd : prepare s = some d) (g : Georef.Grid)
    (hg : Georef.exportGrib s.geo = .ok (some g)) (hs : Timed s) (h0 : H) (hsample : lib.sample "GRIB2" = some h0)
    (hed : ∀ h, lib.get h "editionNumber" = some 2) (hk : ∀ h k v, (lib.set h k v).2 = decide (k ≠ "geography.xo")) :
    createCopy lib opened option writable room old s = .ub := by
  have : create lib .wmo s = .ub := by
    unfold create
    have hx : lib.sample (sampleName .wmo) = some h0 := hsample
    rw [hx, hd]
    show run lib (ops2 s d) h0 = .ub
    unfold ops2
    rw [(grid_of hg).1 d]
    simp only [List.append_assoc]
    let before : List Op := [.set "sourceOfGridDefinition" (.long 0), .set "numberOfDataPoints" (.long d.values.length),
      .set "interpretationOfNumberOfPoints" (.long 0), .set "gridDefinitionTemplateNumber" (.long 90),
      .set "shapeOfTheEarth" (.long 2), .set "numberOfPointsAlongXAxis" (.long s.sx),
      .set "numberOfPointsAlongYAxis" (.long s.sy), .set "latitudeOfSubSatellitePointInDegrees" (.double 0),
      .set "longitudeOfSubSatellitePointInDegrees" (.double s.geo.lon), .set "geography.dx" (.long g.dx),
      .set "geography.dy" (.long g.dy)]
    have stop : ∀ op ∈ indicator2 ++ identification2 s, ∀ o, op ≠ .stop o := by
      intro op hop o
      simp only [indicator2, identification2, List.mem_append, List.mem_cons, List.not_mem_nil, or_false] at hop
      rcases hop with rfl | (((rfl | rfl | rfl | rfl | rfl) | h) | (rfl | rfl))
      all_goals first | (intro h; cases h; done) | exact time_goes hs op h o
    have key : ∀ k ∈ (indicator2 ++ identification2 s).flatMap Op.keys, ∀ h v, (lib.set h k v).2 = true := by
      intro k hm h v
      rw [hk]
      have ki : KeysIn indicator2 ["discipline"] := fun _ hk => hk
      have := (ki.append (keys_identification2 s)) k hm
      have ne : "geography.xo" ∉ ["discipline"] ++ (["centre", "subCentre", "tablesVersion", "localTablesVersion", "significanceOfReferenceTime"] ++ timeKeys ++
      ["productionStatusOfProcessedData", "typeOfProcessedData"]) := by decide
      exact decide_eq_true (fun e => ne (e ▸ this))
    obtain ⟨h1, e1⟩ := run_goes (fun h => .inr (hed h)) stop key h0
    rw [← List.append_assoc, run_append e1]
    have stop' : ∀ op ∈ before, ∀ o, op ≠ .stop o := by
      intro op hop o
      simp only [before, List.mem_cons, List.not_mem_nil, or_false] at hop
      rcases hop with rfl | rfl | rfl | rfl | rfl | rfl | rfl | rfl | rfl | rfl | rfl <;> (intro h; cases h)
    obtain ⟨h2, e2⟩ := run_goes (lib := lib) (l := before) (fun h => .inr (hed h)) stop' (by
      intro k hm h v
      rw [hk]
      have kb : KeysIn before ["sourceOfGridDefinition", "numberOfDataPoints", "interpretationOfNumberOfPoints",
        "gridDefinitionTemplateNumber", "shapeOfTheEarth", "numberOfPointsAlongXAxis", "numberOfPointsAlongYAxis",
        "latitudeOfSubSatellitePointInDegrees", "longitudeOfSubSatellitePointInDegrees", "geography.dx", "geography.dy"] := fun _ hk => hk
      have := kb k hm
      exact decide_eq_true (fun e => by rw [e] at this; exact absurd this (by decide))) h1
    have split : ∃ after, gridOps2 s d g = before ++ .oneOf "geography.xo" g.x0 :: after := ⟨_, rfl⟩
    obtain ⟨after, ea⟩ := split
    rw [ea, List.append_assoc, run_append e2]
    show run lib (.oneOf "geography.xo" g.x0 :: _) h2 = .ub
    rw [run]
    dsimp only
    rw [if_neg (by rw [hk]; decide)]
  unfold createCopy
  rw [ht]
  dsimp only
  rw [this]
  rfl

/-- Discrepancy: without the sample messages of the library, keys are set on a null pointer. -/
theorem C112_violated_sample (opened : Option Bytes → Option D) (option : Option String) (t : Template)
    (ht : templateOf option = some t) (writable : Bool) (room : Nat) (old : Option Bytes) (s : Source) (d : Scaled)
    (hd : prepare s = some d) (hs : lib.sample (sampleName t) = none) :
    createCopy lib opened option writable room old s = .ub := by
  unfold createCopy
  rw [ht]
  dsimp only
  unfold create
  rw [hs, hd]
  rfl

/-- Discrepancy: when the message cannot be encoded, or the file cannot be written, what is opened and returned as the copy is the file
that was there. -/
theorem C112_violated_unwritten (opened : Option Bytes → Option D) (option : Option String) (t : Template)
    (ht : templateOf option = some t) (writable : Bool) (room : Nat) (old : Option Bytes) (s : Source) (h : H)
    (he : create lib t s = .ok (some h)) (hm : lib.message h = none ∨ writable = false) :
    createCopy lib opened option writable room old s = .ok (opened old, old) := by
  unfold createCopy
  rw [ht]
  dsimp only
  rw [he]
  have : write writable room old (lib.message h) = old := by
    rcases hm with hm | hm
    · rw [hm]; rfl
    · subst hm; cases lib.message h <;> simp [write]
  show Outcome.ok _ = _
  rw [this]

/-- Discrepancy: a message cut short when the disk is full is opened and returned like a whole one. -/
theorem C112_violated_short (opened : Option Bytes → Option D) (option : Option String) (t : Template)
    (ht : templateOf option = some t) (room : Nat) (old : Option Bytes) (s : Source) (h : H) (m : Bytes)
    (he : create lib t s = .ok (some h)) (hm : lib.message h = some m) :
    createCopy lib opened option true room old s = .ok (opened (some (m.take room)), some (m.take room)) := by
  unfold createCopy
  rw [ht]
  dsimp only
  rw [he]
  show Outcome.ok _ = _
  rw [hm]
  rfl

/-- Discrepancy: whatever spacecraft the image is of, and whatever its values are, the message says Meteosat second generation, SEVIRI
and scaled radiance. -/
theorem C112_violated_satellite (hl : Keeps lib value) (s : Source) (hs : ∀ vs, s.values = some vs → vs.length = s.sx * s.sy) (h : H)
    (e : create lib .wmo s = .ok (some h)) (id : ℕ) (hid : s.spacecraft = some id) :
    value h "satelliteSeries" = some (.long 333) ∧ value h "instrumentType" = some (.long 207) ∧
    value h "parameterNumber" = some (.long 0) := by
  obtain ⟨k, _⟩ := C112_satellite2 hl s h e id hid
  obtain ⟨_, _, k'⟩ := C112_edition2 hl s hs h e
  refine ⟨k ("satelliteSeries", 333) (by simp [satellite2]), k ("instrumentType", 207) (by simp [satellite2]),
    k' ("parameterNumber", 0) ?_⟩
  simp [always2]

end

/-! ### A case -/

/-- A library that notes what it is told, most recent first. -/
def notebook (edition : ℤ) (refused : List String) : Lib (List (String × Val)) where
  sample _ := some []
  set h k v := if k ∈ refused then (h, false) else ((k, v) :: h, true)
  get _ _ := some edition
  message _ := some [71, 82, 73, 66]

theorem notebook_keeps (edition : ℤ) (refused : List String) :
    Keeps (notebook edition refused) fun h k => h.lookup k where
  same := by
    intro h k v e
    by_cases hk : k ∈ refused
    · simp [notebook, hk] at e
    · simp [notebook, hk]
  others := by
    intro h k v k' e
    by_cases hk : k ∈ refused <;> simp [notebook, hk]
    have : (k' == k) = false := by simpa using e
    simp [List.lookup, this]

/-- Two by two pixels of Meteosat 8, one of which is missing. -/
noncomputable def fourPixels : GribKeys.Source where
  geo := cropped
  projection := true
  sx := 2
  sy := 2
  values := some [1, 2, 3, 9]
  nodata := some 9
  scale := 1
  offset := 0
  datetime := none
  spacecraft := some 55
  channel := none

theorem fourPixels_goes (t : Template) (edition : ℤ) (he : edition = 1 ∨ edition = 2) :
    ∃ h, create (notebook edition []) t fourPixels = .ok (some h) := by
  obtain ⟨g, hg, _⟩ := (C44_grib_start cropped 100 200 rfl (by omega) (by omega)).1 rfl
  have hh : fourPixels.geo.height = Georef.orbitRadiusForGdal := by
    by_contra hne
    unfold Georef.exportGrib at hg
    rw [if_pos (show cropped.height ≠ _ from hne)] at hg
    cases hg
  obtain ⟨d, hd⟩ : ∃ d, prepare fourPixels = some d := by
    unfold prepare
    rw [if_neg (by simp [fourPixels]), if_neg (not_not.2 hh)]
    exact ⟨_, rfl⟩
  obtain ⟨_, hm, vs, hv, hlen, _⟩ := prepare_ok hd
  have hv : vs = [1, 2, 3, 9] := by cases hv; rfl
  have hne : d.countMissing ≠ d.values.length := by
    rw [hm, hlen, hv]
    simp [missingPixels, fourPixels]
  unfold create
  rw [hd]
  show ∃ h, run _ (ops t fourPixels d) [] = _
  refine run_goes (fun _ => he.imp (congrArg some) (congrArg some)) ?_ (by simp [notebook]) _
  have hdata : ∀ op ∈ dataOps d, ∀ o, op ≠ .stop o := by
    intro op hop o
    rw [dataOps, if_neg hne] at hop
    simp at hop
    subst hop
    intro h; cases h
  have hbit : ∀ op ∈ bitMap d, ∀ o, op ≠ .stop o := by
    intro op hop o
    unfold bitMap at hop
    split at hop <;> simp at hop
    · rcases hop with rfl | rfl <;> (intro h; cases h)
    · subst hop; intro h; cases h
  obtain ⟨g2, g1⟩ := grid_of (s := fourPixels) hg
  have simple : ∀ l : List Op, (∀ op ∈ l, match op with | .stop _ => False | _ => True) → ∀ op ∈ l, ∀ o, op ≠ .stop o := by
    intro l hl op hop o e
    have := hl op hop
    subst e
    exact this
  intro op hop o
  cases t with
  | wmo =>
    simp only [ops, ops2, List.mem_append, g2 d] at hop
    rcases hop with (((((h | h) | h) | h) | h) | h) | h
    · exact simple indicator2 (by simp [indicator2]) op h o
    · exact simple (identification2 fourPixels) (by simp [identification2, timeOps, fourPixels]) op h o
    · exact simple (gridOps2 fourPixels d g) (by simp [gridOps2]) op h o
    · exact simple (product2 fourPixels) (by simp [product2, fourPixels]) op h o
    · exact simple (representation2 fourPixels d) (by simp [representation2]) op h o
    · exact hbit op h o
    · exact hdata op h o
  | ecmwf =>
    simp only [ops, ops1, List.mem_append, g1] at hop
    rcases hop with ((h | h) | h) | h
    · exact simple (identificationECMWF fourPixels) (by simp [identificationECMWF, identification1, timeOps, fourPixels]) op h o
    · exact simple (gridOps1 fourPixels g) (by simp [gridOps1]) op h o
    · exact hbit op h o
    · exact hdata op h o
  | msat =>
    simp only [ops, ops1, List.mem_append, g1] at hop
    rcases hop with ((h | h) | h) | h
    · exact simple (identification1 fourPixels) (by simp [identification1, timeOps, fourPixels]) op h o
    · exact simple (gridOps1 fourPixels g) (by simp [gridOps1]) op h o
    · exact hbit op h o
    · exact hdata op h o

/-- The hypotheses of the theorems are met: the message of these pixels says that there are four of them, three with values. -/
example : ∃ h, create (notebook 2 []) .wmo fourPixels = .ok (some h) ∧ h.lookup "numberOfDataPoints" = some (.long 4) ∧
    h.lookup "numberOfValues" = some (.long 3) ∧ h.lookup "satelliteNumber" = some (.long 55) := by
  obtain ⟨h, e⟩ := fourPixels_goes .wmo 2 (.inr rfl)
  obtain ⟨g, _, k⟩ := C112_edition2 (notebook_keeps 2 []) fourPixels (by intro vs hv; cases hv; rfl) h e
  obtain ⟨k', _⟩ := C112_satellite2 (notebook_keeps 2 []) fourPixels h e 55 rfl
  have hm : missingPixels fourPixels = 1 := by
    simp [missingPixels, fourPixels]
  refine ⟨h, e, k ("numberOfDataPoints", 4) ?_, k ("numberOfValues", 3) ?_, k' ("satelliteNumber", 55) (by simp [satellite2])⟩
  · simp [counts2, fourPixels]
  · rw [hm]; simp [counts2, fourPixels]

end Msat.Props
