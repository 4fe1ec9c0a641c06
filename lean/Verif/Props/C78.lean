import Mathlib.Tactic.Linarith
import Mathlib.Tactic.Positivity
import Mathlib.Algebra.Order.Field.Basic
import Mathlib.Tactic.NormNum
import Mathlib.Tactic.Ring
import Verif.Model.GribFile
import Verif.Spec.GribFile
import Verif.Lemmas.Outcome
import Verif.Props.C13_C16

/-
C78: images exported to GRIB.
-/
namespace Msat.Props
open Msat Msat.GribFile Msat.GribSpec Msat.SatSpec

/-! ### Keys -/

/-- The keys of a message are those of the sections before the bitmap. -/
theorem get_data (pack : Rat → Rat) (b : Band) (m m' : Message) (h : dataSection pack b (bitMapSection b m) = some m') (k : String) :
    m'.get k = m.get k := by
  unfold dataSection at h
  split at h
  · cases h
  · injection h with h
    subst h
    unfold bitMapSection
    split <;> rfl

/-- The wave number of a channel of SEVIRI finds the channel. -/
theorem wave_round : ∀ s ∈ seviri, ∀ c ∈ channels, ∃ n, Facts.centralWaveNumber s c.1 = .ok n ∧
    Facts.channelFromWaveNumber s (Facts.roundC n : Rat) = .ok c.1 := by
  have : ∀ s ∈ seviri, ∀ c ∈ channels, (match Facts.centralWaveNumber s c.1 with
      | .ok n => decide (Facts.channelFromWaveNumber s (Facts.roundC n : Rat) = .ok c.1)
      | _ => false) = true := by decide +kernel
  intro s hs c hc
  have h := this s hs c hc
  split at h
  · rename_i n e; exact ⟨n, e, of_decide_eq_true h⟩
  · cases h

/-! ### Points -/

/-- What is stored for a pixel. -/
theorem point_of (pack : Rat → Rat) (b : Band) (hs : b.scale ≠ 0) (m m' : Message)
    (h : dataSection pack b (bitMapSection b m) = some m') :
    m'.points = b.values.map fun v => if some v = b.nodata then none else some (pack (v * b.scale + b.offset)) := by
  unfold dataSection at h
  split at h
  · cases h
  injection h with h
  subst h
  unfold Message.setValues scaled
  dsimp only
  rw [List.map_map]
  apply List.map_congr_left
  intro v hv
  dsimp only [Function.comp]
  unfold bitMapSection
  by_cases hn : some v = b.nodata
  · have hc : countMissing b ≠ 0 := by
      unfold countMissing
      exact Nat.pos_iff_ne_zero.mp (List.countP_pos_iff.mpr ⟨v, hv, decide_eq_true hn⟩)
    have hg : gribMissing b = some (v * b.scale + b.offset) := by unfold gribMissing; rw [← hn]; rfl
    simp only [if_pos hc, if_pos hn, hg, Option.getD_some, and_self, if_true]
  · simp only [if_neg hn]
    rw [if_neg]
    rintro ⟨h1, h2⟩
    split at h1
    · rename_i hc
      rw [if_pos hc] at h2
      dsimp only at h2
      unfold gribMissing at h2
      cases hnd : b.nodata with
      | none => rw [hnd] at h2; cases h2
      | some n =>
        rw [hnd] at h2
        injection h2 with h2
        exact hn (by rw [hnd, mul_right_cancel₀ hs (add_right_cancel h2)])
    · cases h1

/-! ### Writing and reading -/

/-- The keys that the sample messages must not have already. -/
def plainSample (sample : Template → List (String × Int)) : Prop :=
  ∀ t k, k ∈ ["channelNumber", "satelliteNumber", "satelliteIdentifier"] ∨ (t = .wmo ∧ k = "level") → (sample t).lookup k = none

/-- A channel that the template can write. -/
def writes (t : Template) (s c : Nat) : Prop := t = .wmo → (s : Int) ∈ seviri ∧ ∃ e ∈ channels, e.1 = (c : Int)

/-- Opening a message of `create`. -/
theorem open_created (pack : Rat → Rat) (sample : Template → List (String × Int)) (hsample : plainSample sample) (t : Template) (src : Source)
    (hsrs : src.srs = some true) (b : Band) (bs : List Band) (hb : src.bands = b :: bs) (s c : Nat) (hsp : src.spacecraft = some s)
    (hch : b.channel = some c) (hw : writes t s c) (hlen : b.values.length = src.sx * src.sy) (hscale : b.scale ≠ 0)
    (hsome : ∃ v ∈ b.values, some v ≠ b.nodata) :
    ∃ m, create pack sample t src = .ok (some m) ∧ openMessage m = .ok (some ⟨src.sx, src.sy, s, c, defaultScaledMissing c,
      some (b.values.map fun v => if some v = b.nodata then defaultScaledMissing c else some (pack (v * b.scale + b.offset)))⟩) := by
  have hdata : ∀ m, ∃ m', dataSection pack b (bitMapSection b m) = some m' := by
    intro m
    unfold dataSection
    rw [if_neg]
    · exact ⟨_, rfl⟩
    · intro h
      unfold countMissing scaled at h
      rw [List.length_map, List.countP_eq_length] at h
      obtain ⟨v, hv, hn⟩ := hsome
      exact hn (of_decide_eq_true (h v hv))
  -- what the keys must be
  have key : ∀ m m', dataSection pack b (bitMapSection b m) = some m' → m.get "numberOfPointsAlongXAxis" = some (src.sx : Int) →
      m.get "numberOfPointsAlongYAxis" = some (src.sy : Int) →
      m.getOneOf ["satelliteNumber", "satelliteIdentifier", "indicatorOfTypeOfLevel"] = some (s : Int) →
      channelOf m s = .ok (some (c : Int)) →
      openMessage m' = .ok (some ⟨src.sx, src.sy, s, c, defaultScaledMissing c,
      some (b.values.map fun v => if some v = b.nodata then defaultScaledMissing c else some (pack (v * b.scale + b.offset)))⟩) := by
    intro m m' h hx hy hso hco
    have g := get_data pack b m m' h
    have go : ∀ ks, m'.getOneOf ks = m.getOneOf ks := by
      intro ks
      induction ks with
      | nil => rfl
      | cons k ks ih => unfold Message.getOneOf; rw [g, ih]
    have gc : channelOf m' s = channelOf m s := by
      unfold channelOf; rw [g, g, g, g]
    unfold openMessage
    rw [g, g, go, hx, hy, hso]
    dsimp only
    rw [gc, hco, Outcome.ok_bind]
    dsimp only
    have hv : ({ m' with missingValue := defaultScaledMissing c } : Message).values =
        b.values.map fun v => if some v = b.nodata then defaultScaledMissing c else some (pack (v * b.scale + b.offset)) := by
      unfold Message.values
      dsimp only
      rw [point_of pack b hscale m m' h, List.map_map]
      apply List.map_congr_left
      intro v _
      dsimp only [Function.comp]
      split
      · rename_i x e
        split at e
        · cases e
        · rename_i hn; rw [if_neg hn]; exact e.symm
      · rename_i e
        split at e
        · rename_i hn; rw [if_pos hn]
        · cases e
    unfold readBlock
    rw [hv, List.length_map, hlen, if_pos (by push_cast; rfl)]
    rfl
  unfold create
  rw [hsrs, hb]
  dsimp only
  have hno : ∀ t k, k ∈ ["channelNumber", "satelliteNumber", "satelliteIdentifier"] ∨ (t = .wmo ∧ k = "level") →
      Message.get ⟨sample t, false, none, []⟩ k = none := hsample
  cases t with
  | wmo =>
    obtain ⟨hs, e, he, hec⟩ := hw rfl
    obtain ⟨n, hn, hback⟩ := wave_round s hs e he
    rw [hec] at hn hback
    dsimp only
    unfold productWMO
    rw [hsp, hch]
    dsimp only
    rw [hn]
    simp only [Outcome.ok_bind]
    show ∃ m, Outcome.ok _ = Outcome.ok (some m) ∧ _
    obtain ⟨m', hm'⟩ := hdata _
    have n1 := hno .wmo "channelNumber" (by decide)
    have n2 := hno .wmo "level" (by decide)
    unfold Message.get at n1 n2
    refine ⟨m', by rw [hm'], key _ m' hm' ?_ ?_ ?_ ?_⟩
    · simp [Message.get, Message.set, List.lookup_cons]
    · simp [Message.get, Message.set, List.lookup_cons]
    · simp [Message.getOneOf, Message.get, Message.set, List.lookup_cons]
    · simp [channelOf, Message.get, Message.set, List.lookup_cons, n1, n2, hback]
  | ecmwf =>
    have n1 := hno .ecmwf "satelliteNumber" (by decide)
    unfold Message.get at n1
    dsimp only
    unfold identificationECMWF identificationGRIB1
    rw [hsp, hch]
    simp only [pure, Outcome.ok_bind]
    obtain ⟨m', hm'⟩ := hdata _
    refine ⟨m', by rw [hm'], key _ m' hm' ?_ ?_ ?_ ?_⟩
    · simp [Message.get, Message.set, List.lookup_cons]
    · simp [Message.get, Message.set, List.lookup_cons]
    · simp [Message.getOneOf, Message.get, Message.set, List.lookup_cons, n1]
    · simp [channelOf, Message.get, Message.set, List.lookup_cons]
  | msat =>
    have n1 := hno .msat "satelliteNumber" (by decide)
    have n2 := hno .msat "satelliteIdentifier" (by decide)
    have n3 := hno .msat "channelNumber" (by decide)
    unfold Message.get at n1 n2 n3
    dsimp only
    unfold identificationGRIB1
    rw [hsp, hch]
    simp only [pure, Outcome.ok_bind]
    obtain ⟨m', hm'⟩ := hdata _
    refine ⟨m', by rw [hm'], key _ m' hm' ?_ ?_ ?_ ?_⟩
    · simp [Message.get, Message.set, List.lookup_cons]
    · simp [Message.get, Message.set, List.lookup_cons]
    · simp [Message.getOneOf, Message.get, Message.set, List.lookup_cons, n1, n2]
    · simp [channelOf, Message.get, Message.set, List.lookup_cons, n3]

theorem copy_created (pack : Rat → Rat) (sample : Template → List (String × Int)) (option : Option String) (t : Template)
    (ht : templateOf option = some t) (old : Option Message) (src : Source) (m : Message) (hc : create pack sample t src = .ok (some m))
    (d : Dataset) (ho : openMessage m = .ok (some d)) :
    createCopy true pack sample option true true old src = .ok (some d, some m) := by
  unfold createCopy
  rw [if_pos rfl, ht]
  dsimp only
  rw [hc, Outcome.ok_bind]
  dsimp only
  unfold write gribOpen
  rw [if_pos rfl, if_pos rfl, if_pos rfl]
  dsimp only
  rw [ho, Outcome.ok_bind]
  rfl

/-! ### The property -/

/-- An image that was exported with any template has the size, the satellite and the channel of the source; its missing pixels are missing,
and the others are measures that are no further from those of the source than packing puts them.  Missing for C78: measures equal to the
missing value of the channel (see `C78_violated_zero`), images with scale zero (see `C78_violated_scale`), files that cannot be written
(see `C78_violated_stale`), the trace file (see `C78_violated_trace`); rounding of `double`. -/
theorem C78_image_partial (pack : Rat → Rat) (ε : Rat) (sample : Template → List (String × Int)) (hsample : plainSample sample) (option : Option String) (t : Template)
    (ht : templateOf option = some t) (old : Option Message) (src : Source)
    (hsrs : src.srs = some true) (b : Band) (bs : List Band) (hb : src.bands = b :: bs) (s c : Nat) (hsp : src.spacecraft = some s)
    (hch : b.channel = some c) (hw : writes t s c) (hlen : b.values.length = src.sx * src.sy) (hscale : b.scale ≠ 0)
    (hsome : ∃ v ∈ b.values, some v ≠ b.nodata)
    (hpack : ∀ v ∈ b.values, some v ≠ b.nodata → Near ε (some (v * b.scale + b.offset)) (some (pack (v * b.scale + b.offset))))
    (hclear : ∀ v ∈ b.values, some v ≠ b.nodata → some (pack (v * b.scale + b.offset)) ≠ defaultScaledMissing c) :
    ∃ d file ps, createCopy true pack sample option true true old src = .ok (some d, file) ∧ d.sx = src.sx ∧ d.sy = src.sy ∧
      d.spacecraft = s ∧ d.channel = c ∧ d.pixels = some ps ∧ ps.length = b.values.length ∧
      ∀ (k : Nat) (v : Rat) (p : Option Rat), b.values[k]? = some v → ps[k]? = some p →
        Near ε (GribSpec.measure b.nodata b.scale b.offset v) (readMeasure d.nodata p) := by
  obtain ⟨m, hc, ho⟩ := open_created pack sample hsample t src hsrs b bs hb s c hsp hch hw hlen hscale hsome
  refine ⟨_, some m, _, copy_created pack sample option t ht old src m hc _ ho, rfl, rfl, rfl, rfl, rfl, List.length_map .., ?_⟩
  intro k v p hv hp
  rw [List.getElem?_map, hv] at hp
  injection hp with hp
  subst hp
  unfold GribSpec.measure readMeasure
  dsimp only
  by_cases hn : some v = b.nodata
  · simp only [if_pos hn, if_true]
    trivial
  · simp only [if_neg hn, if_neg (hclear v (List.mem_of_getElem? hv) hn)]
    exact hpack v (List.mem_of_getElem? hv) hn

/-- Two pixels of channel 9 of Meteosat-8, one missing, exported with the default template. -/
example : ∃ d file ps, createCopy true id (fun _ => []) none true true none
    ⟨2, 1, some true, some 55, [⟨[0, 500], some 0, 1 / 2, 10, some 9⟩]⟩ = .ok (some d, file) ∧ d.pixels = some ps ∧ d.channel = 9 ∧
    ps = [d.nodata, some 260] := by
  obtain ⟨m, hc, ho⟩ := open_created id (fun _ => []) (fun _ _ _ => rfl) .wmo
    ⟨2, 1, some true, some 55, [⟨[0, 500], some 0, 1 / 2, 10, some 9⟩]⟩ rfl _ _ rfl 55 9 rfl rfl
    (fun _ => ⟨by decide, by decide⟩) rfl (by norm_num) ⟨500, by simp, by simp⟩
  refine ⟨_, some m, _, copy_created id (fun _ => []) none .wmo rfl none _ m hc _ ho, rfl, rfl, ?_⟩
  norm_num

/-- The export never says that there is an image when all its pixels are missing, or with a template that is not known; and it leaves the
file as it was. -/
theorem C78_refused (pack : Rat → Rat) (sample : Template → List (String × Int)) (option : Option String) (writable room : Bool)
    (old : Option Message) (src : Source) :
    (templateOf option = none → createCopy true pack sample option writable room old src = .ok (none, old)) ∧
    (∀ t b bs, templateOf option = some t → t ≠ .wmo → src.srs = some true → src.bands = b :: bs → (∀ v ∈ b.values, some v = b.nodata) →
      createCopy true pack sample option writable room old src = .ok (none, old)) ∧
    (∀ t b bs, templateOf option = some t → src.srs = some false → src.bands = b :: bs →
      createCopy true pack sample option writable room old src = .ok (none, old)) := by
  refine ⟨fun h => ?_, fun t b bs ht hw hsrs hb hall => ?_, fun t b bs ht hsrs hb => ?_⟩
  · unfold createCopy
    rw [if_pos rfl, h]
  · have hd : ∀ m, dataSection pack b (bitMapSection b m) = none := by
      intro m
      unfold dataSection
      rw [if_pos]
      unfold countMissing scaled
      rw [List.length_map, List.countP_eq_length]
      exact fun v hv => decide_eq_true (hall v hv)
    have hc : create pack sample t src = .ok none := by
      unfold create
      rw [hsrs, hb]
      dsimp only
      cases t with
      | wmo => exact absurd rfl hw
      | ecmwf => simp only [pure, Outcome.ok_bind, hd]
      | msat => simp only [pure, Outcome.ok_bind, hd]
    unfold createCopy
    rw [if_pos rfl, ht]
    dsimp only
    rw [hc]
    rfl
  · have hc : create pack sample t src = .ok none := by
      unfold create
      rw [hsrs, hb]
    unfold createCopy
    rw [if_pos rfl, ht]
    dsimp only
    rw [hc]
    rfl

/-- There are templates that are not known, and the default is the one of WMO. -/
example : templateOf (some "msat/foo") = none ∧ templateOf none = some .wmo ∧ templateOf (some "msat/ecmwf") = some .ecmwf := by decide

/-- The names of the templates say where the satellite and the channel are in the file: without a name, and with msat/wmo, in the keys of
GRIB2 for satellites; with msat/ecmwf in those of the local definition 24 of ECMWF; with msat/msat in the level.  Other names are refused. -/
theorem C78_templates (pack : Rat → Rat) (sample : Template → List (String × Int)) (option : Option String) (old : Option Message) (src : Source)
    (b : Band) (bs : List Band) (hb : src.bands = b :: bs) (s c : Nat) (hsp : src.spacecraft = some s) (hch : b.channel = some c) :
    (option ∉ [none, some "msat/wmo", some "msat/ecmwf", some "msat/msat"] →
      createCopy true pack sample option true true old src = .ok (none, old)) ∧
    ∀ d m, createCopy true pack sample option true true old src = .ok (some d, some m) →
      (option = none ∨ option = some "msat/wmo" →
        m.get "satelliteSeries" = some 333 ∧ m.get "satelliteNumber" = some (s : Int) ∧ m.get "instrumentType" = some 207 ∧
        m.get "scaleFactorOfCentralWaveNumber" = some 0) ∧
      (option = some "msat/ecmwf" →
        m.get "localDefinitionNumber" = some 24 ∧ m.get "satelliteIdentifier" = some (s : Int) ∧ m.get "instrumentIdentifier" = some 207 ∧
        m.get "channelNumber" = some (c : Int) ∧ m.get "indicatorOfTypeOfLevel" = some (s : Int) ∧ m.get "level" = some (c : Int)) ∧
      (option = some "msat/msat" → m.get "indicatorOfTypeOfLevel" = some (s : Int) ∧ m.get "level" = some (c : Int)) := by
  constructor
  · intro hno
    have : templateOf option = none := by
      simp only [List.mem_cons, List.not_mem_nil, or_false, not_or] at hno
      obtain ⟨h1, h2, h3, h4⟩ := hno
      cases option with
      | none => exact absurd rfl h1
      | some x =>
        unfold templateOf
        dsimp only
        rw [if_neg (fun e => h2 (by rw [e])), if_neg (fun e => h3 (by rw [e])), if_neg (fun e => h4 (by rw [e]))]
    unfold createCopy
    rw [if_pos rfl, this]
  · intro d m h
    -- the message is the one of `create`
    have hcr : ∀ t, templateOf option = some t → create pack sample t src = .ok (some m) := by
      intro t ht
      unfold createCopy at h
      rw [if_pos rfl, ht] at h
      obtain ⟨r, hr, h⟩ := Outcome.of_bind_ok h
      cases r with
      | none => cases h
      | some m0 =>
        dsimp only at h
        obtain ⟨d0, hd0, h⟩ := Outcome.of_bind_ok h
        injection h with h
        injection h with h1 h2
        unfold write at h2
        rw [if_pos rfl, if_pos rfl] at h2
        injection h2 with h2
        rw [hr, h2]
    have hsrs : ∀ t, create pack sample t src = .ok (some m) → src.srs = some true := by
      intro t e
      unfold create at e
      rw [hb] at e
      cases hs : src.srs with
      | none => rw [hs] at e; cases e
      | some x =>
        cases x with
        | true => rfl
        | false => rw [hs] at e; cases e
    have keys : ∀ m0, dataSection pack b (bitMapSection b m0) = some m → ∀ k, m.get k = m0.get k := fun m0 e k => get_data pack b m0 m e k
    refine ⟨fun ho => ?_, fun ho => ?_, fun ho => ?_⟩
    · have ht : templateOf option = some .wmo := by rcases ho with rfl | rfl <;> rfl
      have e := hcr _ ht
      have hs := hsrs _ e
      unfold create at e
      rw [hs, hb] at e
      dsimp only at e
      obtain ⟨m0, h0, e⟩ := Outcome.of_bind_ok e
      injection e with e
      rw [keys m0 e, keys m0 e, keys m0 e, keys m0 e]
      unfold productWMO at h0
      rw [hsp, hch] at h0
      dsimp only at h0
      obtain ⟨n, -, h0⟩ := Outcome.of_bind_ok h0
      injection h0 with h0
      subst h0
      simp [Message.get, Message.set, List.lookup_cons]
    · subst ho
      have e := hcr .ecmwf rfl
      have hs := hsrs _ e
      unfold create at e
      rw [hs, hb] at e
      dsimp only at e
      injection e with e
      rw [keys _ e, keys _ e, keys _ e, keys _ e, keys _ e, keys _ e]
      unfold identificationECMWF identificationGRIB1
      rw [hsp, hch]
      simp [Message.get, Message.set, List.lookup_cons]
    · subst ho
      have e := hcr .msat rfl
      have hs := hsrs _ e
      unfold create at e
      rw [hs, hb] at e
      dsimp only at e
      injection e with e
      rw [keys _ e, keys _ e]
      unfold identificationGRIB1
      rw [hsp, hch]
      simp [Message.get, Message.set, List.lookup_cons]

/-- `C78_image_partial` gives such exports for all the templates. -/
example : ∃ d m, createCopy true id (fun _ => []) (some "msat/msat") true true none
    ⟨2, 1, some true, some 55, [⟨[0, 500], some 0, 1 / 2, 10, some 9⟩]⟩ = .ok (some d, some m) := by
  obtain ⟨m, hc, ho⟩ := open_created id (fun _ => []) (fun _ _ _ => rfl) .msat
    ⟨2, 1, some true, some 55, [⟨[0, 500], some 0, 1 / 2, 10, some 9⟩]⟩ rfl _ _ rfl 55 9 rfl rfl
    (fun h => by cases h) rfl (by norm_num) ⟨500, by simp, by simp⟩
  exact ⟨_, m, copy_created id (fun _ => []) (some "msat/msat") .msat rfl none _ m hc _ ho⟩

/-- Files in GRIB2 made by others: the wave number of the channel can have any number of decimals, and does not have to be exact. -/
theorem C78_wave_number (m : Message) (sx sy s : Int) (e : Nat) (v : Int) (hx : m.get "numberOfPointsAlongXAxis" = some sx)
    (hy : m.get "numberOfPointsAlongYAxis" = some sy) (hs : m.get "satelliteNumber" = some s) (hc : m.get "channelNumber" = none)
    (hl : m.get "level" = none) (he : m.get "scaleFactorOfCentralWaveNumber" = some (e : Int))
    (hv : m.get "scaledValueOfCentralWaveNumber" = some v) (hsev : s ∈ seviri) (ch : Int) (name : String) (t : Int) (thermal : Bool)
    (hch : (ch, name, t, thermal) ∈ channels) (hpos : 0 < v)
    (hnear : ((t : Rat) - 1 / 2) * ((v : Rat) / 10 ^ e) ≤ 10000000 ∧ 10000000 < ((t : Rat) + 1 / 2) * ((v : Rat) / 10 ^ e)) :
    ∃ d, openMessage m = .ok (some d) ∧ d.sx = sx ∧ d.sy = sy ∧ d.spacecraft = s ∧ d.channel = ch := by
  have hw : Facts.channelFromWaveNumber s ((v : Rat) * (10 : Rat) ^ (-(e : Int))) = .ok ch := by
    have e1 : (v : Rat) * (10 : Rat) ^ (-(e : Int)) = (v : Rat) / 10 ^ e := by
      rw [zpow_neg, zpow_natCast]; rfl
    rw [e1]
    have hp : 0 < (v : Rat) / 10 ^ e := by
      have : (0 : Rat) < v := by exact_mod_cast hpos
      positivity
    generalize (v : Rat) / 10 ^ e = n at hnear hp
    unfold Facts.channelFromWaveNumber
    rw [if_neg (fun hh => hp.ne' hh.1)]
    refine (C16_channel_of_wavelength s ch _).2 ⟨hsev, name, t, thermal, hch, ?_, ?_⟩
    · rw [one_div_mul_eq_div, le_div_iff₀ hp]
      linarith [hnear.1]
    · rw [one_div_mul_eq_div, div_lt_iff₀ hp]
      linarith [hnear.2]
  unfold openMessage
  rw [hx, hy, Message.getOneOf, hs]
  dsimp only
  unfold channelOf
  rw [hc, hl, he, hv]
  dsimp only
  rw [hw]
  exact ⟨_, rfl, rfl, rfl, rfl, rfl⟩

/-- 92592.6 per metre for channel 9. -/
example : (9, "IR_108", 108, true) ∈ channels ∧ ((108 : Rat) - 1 / 2) * ((925926 : Int) / 10 ^ 1) ≤ 10000000 ∧
    10000000 < ((108 : Rat) + 1 / 2) * ((925926 : Int) / 10 ^ 1) := by
  refine ⟨by decide, by norm_num, by norm_num⟩

/-- The missing value of an image that was opened depends on the channel: zero for all but the first and the last. -/
theorem C78_missing_value (m : Message) (d : Dataset) (h : openMessage m = .ok (some d)) :
    (d.channel = 1 → d.nodata = some (-1.02691)) ∧ (d.channel = 12 → d.nodata = some (-1.63196)) ∧
    (2 ≤ d.channel ∧ d.channel ≤ 11 ∨ d.channel = 0 → d.nodata = some 0) ∧ (d.channel < 0 ∨ 12 < d.channel → d.nodata = none) := by
  have hn : d.nodata = defaultScaledMissing d.channel := by
    unfold openMessage at h
    split at h
    · obtain ⟨c, -, h⟩ := Outcome.of_bind_ok h
      cases c with
      | none => cases h
      | some c =>
        injection h with h
        injection h with h
        subst h
        rfl
    · cases h
  rw [hn]
  generalize d.channel = c
  refine ⟨?_, ?_, ?_, ?_⟩
  · rintro rfl
    have : defaultScaledMissing 1 = some (-102691 / 100000) := by decide +kernel
    rw [this]
    norm_num
  · rintro rfl
    have : defaultScaledMissing 12 = some (-163196 / 100000) := by decide +kernel
    rw [this]
    norm_num
  · intro hc
    have : c = 0 ∨ c = 2 ∨ c = 3 ∨ c = 4 ∨ c = 5 ∨ c = 6 ∨ c = 7 ∨ c = 8 ∨ c = 9 ∨ c = 10 ∨ c = 11 := by omega
    rcases this with rfl | rfl | rfl | rfl | rfl | rfl | rfl | rfl | rfl | rfl | rfl <;> decide +kernel
  · intro hc
    unfold defaultScaledMissing
    split
    · rw [List.getElem?_eq_none (by show 13 ≤ _; omega)]
      rfl
    · rfl

/-! ### What goes wrong -/

/-- The missing value of the opened image is always 0 in channels 2 to 11: a pixel whose measure is zero becomes a missing one. -/
theorem C78_violated_zero (pack : Rat → Rat) (h0 : pack 0 = 0)
    (sample : Template → List (String × Int)) (hsample : plainSample sample) (option : Option String) (t : Template)
    (ht : templateOf option = some t) (old : Option Message) (src : Source)
    (hsrs : src.srs = some true) (b : Band) (bs : List Band) (hb : src.bands = b :: bs) (s c : Nat) (hsp : src.spacecraft = some s)
    (hch : b.channel = some c) (hc2 : 2 ≤ c) (hc11 : c ≤ 11) (hw : writes t s c) (hlen : b.values.length = src.sx * src.sy)
    (hscale : b.scale ≠ 0) (k : Nat) (v : Rat) (hv : b.values[k]? = some v) (hn : some v ≠ b.nodata) (hzero : v * b.scale + b.offset = 0) :
    GribSpec.measure b.nodata b.scale b.offset v = some 0 ∧
    ∃ d file ps p, createCopy true pack sample option true true old src = .ok (some d, file) ∧ d.pixels = some ps ∧ ps[k]? = some p ∧
      readMeasure d.nodata p = none := by
  obtain ⟨m, hc, ho⟩ := open_created pack sample hsample t src hsrs b bs hb s c hsp hch hw hlen hscale ⟨v, List.mem_of_getElem? hv, hn⟩
  have hmiss : defaultScaledMissing c = some 0 := by
    have : c = 2 ∨ c = 3 ∨ c = 4 ∨ c = 5 ∨ c = 6 ∨ c = 7 ∨ c = 8 ∨ c = 9 ∨ c = 10 ∨ c = 11 := by omega
    rcases this with rfl | rfl | rfl | rfl | rfl | rfl | rfl | rfl | rfl | rfl <;> decide +kernel
  refine ⟨by unfold GribSpec.measure; rw [if_neg hn, hzero], _, some m, _, some 0, copy_created pack sample option t ht old src m hc _ ho, rfl, ?_, ?_⟩
  · rw [List.getElem?_map, hv, Option.map_some, if_neg hn, hzero, h0]
  · unfold readMeasure
    dsimp only
    rw [hmiss, if_pos rfl]

/-- A pixel of channel 9 that has not any radiance. -/
example : GribSpec.measure (some 0) (1 / 2) (-5) 10 = some 0 ∧ plainSample (fun _ => []) ∧ writes .wmo 55 9 := by
  refine ⟨by unfold GribSpec.measure; norm_num, fun _ _ _ => rfl, fun _ => ⟨by decide, by decide⟩⟩

/-- With scale zero all the pixels become missing as soon as one is. -/
theorem C78_violated_scale (pack : Rat → Rat) (b : Band) (hscale : b.scale = 0) (m m' : Message)
    (hsome : ∃ v ∈ b.values, some v = b.nodata) (h : dataSection pack b (bitMapSection b m) = some m') :
    ∀ p ∈ m'.points, p = none := by
  unfold dataSection at h
  split at h
  · cases h
  injection h with h
  subst h
  obtain ⟨w, hw, hn⟩ := hsome
  have hc : countMissing b ≠ 0 := by
    unfold countMissing
    exact Nat.pos_iff_ne_zero.mp (List.countP_pos_iff.mpr ⟨w, hw, decide_eq_true hn⟩)
  have hg : gribMissing b = some b.offset := by unfold gribMissing; rw [← hn, Option.map_some, hscale]; congr 1; ring
  intro p hp
  unfold Message.setValues scaled bitMapSection at hp
  rw [if_pos hc] at hp
  dsimp only at hp
  rw [List.map_map] at hp
  obtain ⟨v, -, hv⟩ := List.mem_map.mp hp
  subst hv
  dsimp only [Function.comp]
  rw [if_pos]
  refine ⟨rfl, ?_⟩
  rw [hg]
  split
  · rfl
  · rw [hscale]; congr 1; ring

/-- When the file cannot be written, the export succeeds if there is an image in it already: it gives that image, whatever the source. -/
theorem C78_violated_stale (pack : Rat → Rat) (sample : Template → List (String × Int)) (option : Option String) (t : Template)
    (ht : templateOf option = some t) (room : Bool) (src : Source) (m old : Message) (hc : create pack sample t src = .ok (some m)) (d : Dataset)
    (ho : openMessage old = .ok (some d)) :
    createCopy true pack sample option false room (some old) src = .ok (some d, some old) := by
  unfold createCopy
  rw [if_pos rfl, ht]
  dsimp only
  rw [hc, Outcome.ok_bind]
  dsimp only
  unfold write gribOpen
  simp only [Bool.false_eq_true, if_false, if_true, ho, Outcome.ok_bind]
  rfl

/-- A message that can be opened. -/
example : openMessage ⟨[("numberOfPointsAlongXAxis", 1), ("numberOfPointsAlongYAxis", 1), ("satelliteNumber", 55), ("level", 9)], false,
    none, [some 7]⟩ = .ok (some ⟨1, 1, 55, 9, some 0, some [some 7]⟩) := by
  unfold openMessage channelOf
  simp only [Message.getOneOf, Message.get, List.lookup]
  show Outcome.ok (some (Dataset.mk 1 1 55 9 (defaultScaledMissing 9) (some [some 7]))) = _
  rw [show defaultScaledMissing 9 = some 0 by decide +kernel]

/-- If /tmp/trace-gribapi cannot be opened, as when it belongs to somebody else, opening or exporting any image writes to a null pointer. -/
theorem C78_violated_trace (pack : Rat → Rat) (sample : Template → List (String × Int)) (option : Option String) (writable room : Bool)
    (old : Option Message) (src : Source) (file : Option Message) :
    gribOpen false file = .ub ∧ createCopy false pack sample option writable room old src = .ub := ⟨rfl, rfl⟩

/-- A dataset without spatial reference is not refused: a null pointer is used. -/
theorem C78_violated_srs (pack : Rat → Rat) (sample : Template → List (String × Int)) (option : Option String) (t : Template)
    (ht : templateOf option = some t) (writable room : Bool) (old : Option Message) (src : Source) (hsrs : src.srs = none) :
    createCopy true pack sample option writable room old src = .ub := by
  have hc : create pack sample t src = .ub := by unfold create; rw [hsrs]
  unfold createCopy
  rw [if_pos rfl, ht]
  dsimp only
  rw [hc]
  rfl

/-- With the default template, an image of a satellite that is not a SEVIRI one, or of channel 0, makes the export throw an exception that it
does not catch. -/
theorem C78_violated_exception (pack : Rat → Rat) (sample : Template → List (String × Int)) (writable room : Bool) (old : Option Message)
    (src : Source) (hsrs : src.srs = some true) (b : Band) (bs : List Band) (hb : src.bands = b :: bs) (s c : Nat)
    (hsp : src.spacecraft = some s) (hch : b.channel = some c) (hno : (s : Int) ∉ seviri ∨ ∀ e ∈ channels, e.1 ≠ (c : Int)) :
    (createCopy true pack sample none writable room old src).Throws := by
  have hw : ∃ e, Facts.centralWaveNumber s c = .throws e := by
    cases hwl : Facts.centralWavelength s c with
    | ok w =>
      obtain ⟨h1, name, t, th, hm, -⟩ := (C16_wavelength_of_channel s c w).1 hwl
      rcases hno with h | h
      · exact absurd h1 h
      · exact absurd rfl (h _ hm)
    | throws e => exact ⟨e, by unfold Facts.centralWaveNumber; rw [hwl]; rfl⟩
    | ub => exfalso; unfold Facts.centralWavelength at hwl; split at hwl; · split at hwl <;> cases hwl
            · cases hwl
    | terminate => exfalso; unfold Facts.centralWavelength at hwl; split at hwl; · split at hwl <;> cases hwl
                   · cases hwl
    | diverges => exfalso; unfold Facts.centralWavelength at hwl; split at hwl; · split at hwl <;> cases hwl
                  · cases hwl
  obtain ⟨e, he⟩ := hw
  have hc : create pack sample .wmo src = .throws e := by
    unfold create
    rw [hsrs, hb]
    dsimp only
    unfold productWMO
    rw [hsp, hch]
    dsimp only
    rw [he]
    rfl
  unfold createCopy
  rw [if_pos rfl]
  show Outcome.Throws (Outcome.bind (create pack sample .wmo src) _)
  rw [hc]
  trivial

/-- Only the first band is exported: the others make no difference. -/
theorem C78_violated_bands (trace : Bool) (pack : Rat → Rat) (sample : Template → List (String × Int)) (option : Option String)
    (writable room : Bool) (old : Option Message) (src : Source) (b : Band) (bs bs' : List Band) :
    createCopy trace pack sample option writable room old { src with bands := b :: bs } =
      createCopy trace pack sample option writable room old { src with bands := b :: bs' } := by
  have : ∀ t, create pack sample t { src with bands := b :: bs } = create pack sample t { src with bands := b :: bs' } := by
    intro t
    unfold create
    cases src.srs with
    | none => rfl
    | some x => cases x <;> rfl
  unfold createCopy
  simp only [this]

end Msat.Props
