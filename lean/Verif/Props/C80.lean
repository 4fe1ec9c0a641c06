import Mathlib.Tactic.Tauto
import Verif.Props.C79
import Verif.Props.C13_C16

/-
C80: the names of the files that the converter writes.
-/
namespace Msat.Props
open Msat Msat.MsatTool Msat.ToolSpec Msat.SatSpec

/-! ### Parts of the name -/

theorem idOf_number (v : List Char) (h : IsNumber v) (hfit : decimal v < 2 ^ 31) : idOf (some v) = decimal v := by
  show toInt32 (strtoul v).1 = _
  rw [strtoul_number v h (by omega), toInt32_small _ hfit]

theorem filter_digits (s : List Char) (h : ∀ c ∈ s, '0' ≤ c ∧ c ≤ '9') :
    (s.filter fun c => c ≠ '-' ∧ c ≠ ':') = s ∧ s.map (fun c => if c = ' ' then '_' else c) = s := by
  constructor
  · refine List.filter_eq_self.mpr fun c hc => ?_
    rw [decide_eq_true_eq]
    constructor
    · rintro rfl; exact absurd (h _ hc) (by decide)
    · rintro rfl; exact absurd (h _ hc) (by decide)
  · have : s.map (fun c => if c = ' ' then '_' else c) = s.map id := by
      apply List.map_congr_left
      intro c hc
      rw [if_neg]
      · rfl
      · rintro rfl; exact absurd (h _ hc) (by decide)
    rw [this, List.map_id]

theorem take_text (d : Date) (h : d.Valid) :
    d.text.take 16 = d.year ++ ['-'] ++ d.month ++ ['-'] ++ d.day ++ [' '] ++ d.hour ++ [':'] ++ d.minute := by
  obtain ⟨⟨h1, h2, h3, h4, h5, h6⟩, -⟩ := h
  unfold Date.text
  rw [List.append_assoc _ [':'] d.second]
  apply List.take_left'
  simp [h1, h2, h3, h4, h5]

/-- The date in the name. -/
theorem timeOf_text (d : Date) (h : d.Valid) : timeOf (some d.text) = d.year ++ d.month ++ d.day ++ ['_'] ++ d.hour ++ d.minute := by
  have hy := filter_digits d.year fun c hc => h.2 c (by simp [hc])
  have hm := filter_digits d.month fun c hc => h.2 c (by simp [hc])
  have hd := filter_digits d.day fun c hc => h.2 c (by simp [hc])
  have hh := filter_digits d.hour fun c hc => h.2 c (by simp [hc])
  have hi := filter_digits d.minute fun c hc => h.2 c (by simp [hc])
  unfold timeOf
  dsimp only
  rw [take_text d h]
  simp only [List.filter_append, List.map_append, hy.1, hy.2, hm.1, hm.2, hd.1, hd.2, hh.1, hh.2, hi.1, hi.2]
  simp

/-! ### The property -/

/-- The satellite with this name and number carries SEVIRI. -/
def OnSeviri (satellite : String) (s : Nat) : Prop := (s : Int) ∈ seviri ∧ ∃ h, (satellite, (s : Int), h) ∈ satellites

/-- The channel of SEVIRI with this name and number. -/
def OfSeviri (channel : String) (c : Nat) : Prop := ∃ t, ((c : Int), channel, t) ∈ channels

theorem prefix_name (satellite channel : String) (s c : Nat) (hs : OnSeviri satellite s) (hc : OfSeviri channel c) :
    escape satellite.toList ++ ['_'] ++ escape (Facts.sensorName s).toList ++ ['_'] ++
      ((if escape (Facts.channelLevel s c).toList ≠ [] then escape (Facts.channelLevel s c).toList ++ ['_'] else []) ++
        escape channel.toList ++ ['_']) =
    satellite.toList ++ "_Seviri_1_5_".toList ++ channel.toList ++ ['_'] := by
  have hall : (satellites.all fun e => decide (e.2.1 ∉ seviri) || channels.all fun f => decide (
      escape e.1.toList ++ ['_'] ++ escape (Facts.sensorName e.2.1).toList ++ ['_'] ++
      ((if escape (Facts.channelLevel e.2.1 f.1).toList ≠ [] then escape (Facts.channelLevel e.2.1 f.1).toList ++ ['_'] else []) ++
        escape f.2.1.toList ++ ['_']) =
      e.1.toList ++ "_Seviri_1_5_".toList ++ f.2.1.toList ++ ['_'])) = true := by decide +kernel
  obtain ⟨h1, h, h2⟩ := hs
  obtain ⟨t, h3⟩ := hc
  have h4 := List.all_eq_true.mp hall _ h2
  rw [Bool.or_eq_true, decide_eq_true_eq] at h4
  have h5 := List.all_eq_true.mp (h4.resolve_left fun n => n h1) _ h3
  exact of_decide_eq_true h5

/-- The image of a channel of SEVIRI goes to a file with the name of the satellite, the channel and the date to the minute; also when the
dataset has only one band and no band was given. -/
theorem C80_name (satellite channel : String) (s c : Nat) (hs : OnSeviri satellite s) (hc : OfSeviri channel c) (d : Date) (hd : d.Valid)
    (ds : Meta) (b : BandMeta) (hid : ∃ v, ds.spacecraftID = some v ∧ IsNumber v ∧ decimal v = s) (hname : ds.spacecraft = some satellite.toList)
    (hdate : ds.datetime = some d.text) (hch : ∃ v, b.channelID = some v ∧ IsNumber v ∧ decimal v = c) (hcn : b.channel = some channel.toList)
    (bands : List BandMeta) :
    outputFileName ds bands (some b) = seviriFile satellite channel d ∧ outputFileName ds [b] none = seviriFile satellite channel d := by
  obtain ⟨v, hv, hn, he⟩ := hid
  obtain ⟨w, hw, hn', he'⟩ := hch
  have hsb : s < 2 ^ 31 := by
    have : ∀ x ∈ seviri, x < 2 ^ 31 := by decide
    have := this _ hs.1
    omega
  have hcb : c < 2 ^ 31 := by
    obtain ⟨t, h⟩ := hc
    have : ∀ x ∈ channels, x.1 < 2 ^ 31 := by decide
    have := this _ h
    dsimp only at this
    omega
  have h1 : idOf ds.spacecraftID = (s : Int) := by rw [hv, idOf_number v hn (by omega), he]
  have h2 : idOf b.channelID = (c : Int) := by rw [hw, idOf_number w hn' (by omega), he']
  have key : outputFileName ds bands (some b) = seviriFile satellite channel d := by
    unfold outputFileName
    dsimp only
    rw [h1, h2, hname, hcn, hdate, timeOf_text d hd, Option.getD_some, Option.getD_some, prefix_name _ _ _ _ hs hc]
    unfold seviriFile
    simp only [List.append_assoc]
  exact ⟨key, key⟩

/-- Channel 9 of Meteosat-8. -/
example : outputFileName ⟨some "55".toList, some "MSG1".toList, some "2020-01-31 12:45:00".toList⟩ []
    (some ⟨some "9".toList, some "IR_108".toList⟩) = "MSG1_Seviri_1_5_IR_108_20200131_1245".toList :=
  (C80_name "MSG1" "IR_108" 55 9 ⟨by decide, some 321, by decide⟩ ⟨(108, true), by decide⟩
    ⟨"2020".toList, "01".toList, "31".toList, "12".toList, "45".toList, "00".toList⟩
    ⟨by decide, by
      have : ∀ c ∈ ("20200131124500".toList), '0' ≤ c ∧ c ≤ '9' := by decide
      intro c hc
      refine this c ?_
      rcases hc with h | h | h | h | h | h <;> simp at h ⊢ <;> tauto⟩
    _ _ ⟨_, rfl, by decide, by decide⟩ rfl rfl ⟨_, rfl, by decide, by decide⟩ rfl []).1

/-- Images of SEVIRI of different satellites, channels or minutes go to different files. -/
theorem C80_distinct (sat sat' chan chan' : String) (s s' c c' : Nat) (hs : OnSeviri sat s) (hs' : OnSeviri sat' s') (hc : OfSeviri chan c)
    (hc' : OfSeviri chan' c') (d d' : Date) (hd : d.Valid) (hd' : d'.Valid) (ext : List Char)
    (h : seviriFile sat chan d ++ ext = seviriFile sat' chan' d' ++ ext) :
    sat = sat' ∧ s = s' ∧ chan = chan' ∧ c = c' ∧ d.year = d'.year ∧ d.month = d'.month ∧ d.day = d'.day ∧ d.hour = d'.hour ∧
      d.minute = d'.minute := by
  have h := List.append_cancel_right h
  obtain ⟨⟨l1, l2, l3, l4, l5, l6⟩, -⟩ := hd
  obtain ⟨⟨m1, m2, m3, m4, m5, m6⟩, -⟩ := hd'
  unfold seviriFile at h
  have e5 := List.append_inj' h (by rw [l5, m5])
  have e4 := List.append_inj' e5.1 (by rw [l4, m4])
  have e0 := List.append_inj' e4.1 rfl
  have e3 := List.append_inj' e0.1 (by rw [l3, m3])
  have e2 := List.append_inj' e3.1 (by rw [l2, m2])
  have e1 := List.append_inj' e2.1 (by rw [l1, m1])
  have hall : ∀ e ∈ satellites, e.2.1 ∈ seviri → ∀ e' ∈ satellites, e'.2.1 ∈ seviri → ∀ f ∈ channels, ∀ f' ∈ channels,
      e.1.toList ++ "_Seviri_1_5_".toList ++ f.2.1.toList ++ ['_'] = e'.1.toList ++ "_Seviri_1_5_".toList ++ f'.2.1.toList ++ ['_'] →
      e.1 = e'.1 ∧ e.2.1 = e'.2.1 ∧ f.2.1 = f'.2.1 ∧ f.1 = f'.1 := by decide +kernel
  obtain ⟨p1, q, p2⟩ := hs
  obtain ⟨p1', q', p2'⟩ := hs'
  obtain ⟨t, p3⟩ := hc
  obtain ⟨t', p3'⟩ := hc'
  obtain ⟨r1, r2, r3, r4⟩ := hall _ p2 p1 _ p2' p1' _ p3 _ p3' e1.1
  dsimp only at r1 r2 r3 r4
  exact ⟨r1, by omega, r3, by omega, e1.2, e2.2, e3.2, e4.2, e5.2⟩

example : OnSeviri "MSG4" 70 ∧ OfSeviri "HRV" 12 := ⟨⟨by decide, some 324, by decide⟩, ⟨(7, false), by decide⟩⟩

theorem escape_clean (s : List Char) (c : Char) (h : c ∈ escape s) : c ≠ ' ' ∧ c ≠ '.' ∧ (c ≠ '_' → c ∈ s) := by
  unfold escape at h
  obtain ⟨x, hx, rfl⟩ := List.mem_map.mp h
  split
  · exact ⟨by decide, by decide, fun e => absurd rfl e⟩
  · rename_i hn
    rw [not_or] at hn
    exact ⟨hn.1, hn.2, fun _ => hx⟩

theorem sensor_clean (id : Int) : '/' ∉ (Facts.sensorName id).toList := by
  have : Facts.sensorName id = "Seviri" ∨ Facts.sensorName id = "unknown" := by
    unfold Facts.sensorName
    split <;> first | (left; rfl) | (right; rfl)
  rcases this with h | h <;> rw [h] <;> decide

theorem level_clean (id ch : Int) : '/' ∉ (Facts.channelLevel id ch).toList := by
  have : Facts.channelLevel id ch = "1.5" ∨ Facts.channelLevel id ch = "" := by
    unfold Facts.channelLevel
    split
    · split <;> first | (left; rfl) | (right; rfl)
    · right; rfl
  rcases this with h | h <;> rw [h] <;> decide

/-- Whatever the metadata, there are no spaces in the name of a file; dots can only come from the date, and slashes from what the metadata
say: the names of the satellite and of the channel, and the date. -/
theorem C80_characters (ds : Meta) (bands : List BandMeta) (rb : Option BandMeta) (c : Char) (h : c ∈ outputFileName ds bands rb) :
    c ≠ ' ' ∧ (c = '.' → ∃ t, ds.datetime = some t ∧ '.' ∈ t) ∧
    (c = '/' → (∃ t, ds.spacecraft = some t ∧ '/' ∈ t) ∨ (∃ t, ds.datetime = some t ∧ '/' ∈ t) ∨
      ∃ b t, (rb = some b ∨ bands = [b]) ∧ b.channel = some t ∧ '/' ∈ t) := by
  unfold outputFileName at h
  simp only [List.mem_append, List.mem_singleton] at h
  have under : c = '_' → c ≠ ' ' ∧ (c = '.' → ∃ t, ds.datetime = some t ∧ '.' ∈ t) ∧
    (c = '/' → (∃ t, ds.spacecraft = some t ∧ '/' ∈ t) ∨ (∃ t, ds.datetime = some t ∧ '/' ∈ t) ∨
      ∃ b t, (rb = some b ∨ bands = [b]) ∧ b.channel = some t ∧ '/' ∈ t) := by
    rintro rfl
    exact ⟨by decide, fun e => absurd e (by decide), fun e => absurd e (by decide)⟩
  have esc : ∀ s, c ∈ escape s → ('/' ∈ s → (∃ t, ds.spacecraft = some t ∧ '/' ∈ t) ∨ (∃ t, ds.datetime = some t ∧ '/' ∈ t) ∨
      ∃ b t, (rb = some b ∨ bands = [b]) ∧ b.channel = some t ∧ '/' ∈ t) → c ≠ ' ' ∧ (c = '.' → ∃ t, ds.datetime = some t ∧ '.' ∈ t) ∧
    (c = '/' → (∃ t, ds.spacecraft = some t ∧ '/' ∈ t) ∨ (∃ t, ds.datetime = some t ∧ '/' ∈ t) ∨
      ∃ b t, (rb = some b ∨ bands = [b]) ∧ b.channel = some t ∧ '/' ∈ t) := by
    intro s hs hsl
    obtain ⟨e1, e2, e3⟩ := escape_clean s c hs
    exact ⟨e1, fun e => absurd e e2, fun e => hsl (e ▸ e3 (by rw [e]; decide))⟩
  rcases h with ((((h | h) | h) | h) | h) | h
  · refine esc _ h fun hsl => .inl ?_
    cases hsp : ds.spacecraft with
    | none => rw [hsp] at hsl; exact absurd hsl (by decide)
    | some t => rw [hsp] at hsl; exact ⟨t, rfl, hsl⟩
  · exact under h
  · exact esc _ h fun hsl => absurd hsl (sensor_clean _)
  · exact under h
  · have hb : ∃ b, (rb = some b ∨ bands = [b]) ∧ c ∈ (if escape (Facts.channelLevel (idOf ds.spacecraftID) (idOf b.channelID)).toList ≠ [] then
        escape (Facts.channelLevel (idOf ds.spacecraftID) (idOf b.channelID)).toList ++ ['_'] else []) ++ escape (b.channel.getD []) ++ ['_'] := by
      split at h
      · simp at h
      · rename_i b hb
        refine ⟨b, ?_, h⟩
        split at hb
        · injection hb with hb; subst hb; exact .inr rfl
        · exact .inl hb
    obtain ⟨b, hbb, hm⟩ := hb
    simp only [List.mem_append, List.mem_singleton] at hm
    rcases hm with (hm | hm) | hm
    · split at hm
      · simp only [List.mem_append, List.mem_singleton] at hm
        rcases hm with hm | hm
        · exact esc _ hm fun hsl => absurd hsl (level_clean _ _)
        · exact under hm
      · cases hm
    · refine esc _ hm fun hsl => .inr (.inr ?_)
      cases hch : b.channel with
      | none => rw [hch] at hsl; cases hsl
      | some t => rw [hch] at hsl; exact ⟨b, t, hbb, hch, hsl⟩
    · exact under hm
  · cases hdt : ds.datetime with
    | none => rw [hdt] at h; cases h
    | some t =>
      rw [hdt] at h
      unfold timeOf at h
      dsimp only at h
      obtain ⟨x, hx, hxc⟩ := List.mem_map.mp h
      have hxt : x ∈ t := List.mem_of_mem_take (List.mem_filter.mp hx).1
      split at hxc
      · subst hxc; exact ⟨by decide, fun e => absurd e (by decide), fun e => absurd e (by decide)⟩
      · rename_i hnsp
        subst hxc
        exact ⟨hnsp, fun e => ⟨t, rfl, e ▸ hxt⟩, fun e => .inr (.inl ⟨t, rfl, e ▸ hxt⟩)⟩

example : '_' ∈ outputFileName ⟨none, none, none⟩ [] none := by decide

/-- What the metadata of a dataset say, and those of a band, for an image of SEVIRI. -/
def SaysDataset (satellite : String) (s : Nat) (d : Date) (ds : Meta) : Prop :=
  (∃ v, ds.spacecraftID = some v ∧ IsNumber v ∧ decimal v = s) ∧ ds.spacecraft = some satellite.toList ∧ ds.datetime = some d.text
def SaysBand (channel : String) (c : Nat) (b : BandMeta) : Prop :=
  (∃ v, b.channelID = some v ∧ IsNumber v ∧ decimal v = c) ∧ b.channel = some channel.toList

/-- The files that are written: for --conv, the name with a dot and the extension of the format, if it has one; for images, one file for each
band, with the name of the band. -/
theorem C80_files (satellite : String) (s : Nat) (hs : OnSeviri satellite s) (d : Date) (hd : d.Valid) (ds : Meta)
    (hds : SaysDataset satellite s d ds) (chans : List (String × Nat)) (hc : ∀ p ∈ chans, OfSeviri p.1 p.2) (bands : List BandMeta)
    (hlen : bands.length = chans.length) (hb : ∀ (i : Nat) b p, bands[i]? = some b → chans[i]? = some p → SaysBand p.1 p.2 b) :
    (∀ ext, imageNames ext ds bands = chans.map fun p => seviriFile satellite p.1 d ++ ext) ∧
    (∀ p, chans = [p] → (∀ e, convertName ds bands (some e) = seviriFile satellite p.1 d ++ ['.'] ++ e) ∧
      convertName ds bands none = seviriFile satellite p.1 d) := by
  obtain ⟨hid, hname, hdate⟩ := hds
  constructor
  · intro ext
    apply List.ext_getElem?
    intro i
    unfold imageNames
    rw [List.getElem?_map, List.getElem?_map]
    by_cases hi : i < bands.length
    · have h1 : bands[i]? = some bands[i] := List.getElem?_eq_getElem hi
      have h2 : chans[i]? = some (chans[i]'(hlen ▸ hi)) := List.getElem?_eq_getElem (hlen ▸ hi)
      obtain ⟨hch, hcn⟩ := hb i _ _ h1 h2
      rw [h1, h2, Option.map_some, Option.map_some,
        (C80_name satellite _ s _ hs (hc _ (List.getElem_mem _)) d hd ds _ hid hname hdate hch hcn bands).1]
    · rw [List.getElem?_eq_none (by omega), List.getElem?_eq_none (by omega)]
      rfl
  · rintro p rfl
    match bands, hlen with
    | [b], _ =>
      obtain ⟨hch, hcn⟩ := hb 0 b p rfl rfl
      have := (C80_name satellite _ s _ hs (hc _ (List.mem_singleton.mpr rfl)) d hd ds _ hid hname hdate hch hcn []).2
      unfold convertName
      rw [this]
      exact ⟨fun e => by simp, by simp⟩

/-- The images of the bands of a dataset go to different files, if the bands are different channels. -/
theorem C80_bands_distinct (satellite : String) (s : Nat) (hs : OnSeviri satellite s) (d : Date) (hd : d.Valid) (chans : List (String × Nat))
    (hc : ∀ p ∈ chans, OfSeviri p.1 p.2) (hn : (chans.map Prod.fst).Nodup) (ext : List Char) :
    (chans.map fun p => seviriFile satellite p.1 d ++ ext).Nodup := by
  rw [List.nodup_iff_pairwise_ne, List.pairwise_map] at hn ⊢
  refine hn.imp_of_mem ?_
  intro p q hp hq hne e
  exact hne (C80_distinct satellite satellite p.1 q.1 s s p.2 q.2 hs hs (hc p hp) (hc q hq) d d hd hd ext e).2.2.1

example : SaysBand "HRV" 12 ⟨some "12".toList, some "HRV".toList⟩ ∧ (["HRV", "IR_108"]).Nodup := by
  refine ⟨⟨⟨_, rfl, by decide, by decide⟩, rfl⟩, by decide⟩

/-- Without metadata, the satellite and the sensor are unknown, and there is no date. -/
theorem C80_no_metadata : outputFileName ⟨none, none, none⟩ [] none = "unknown_unknown_".toList ∧ idOf none = -1 := by decide

/-! ### What goes wrong -/

/-- A satellite name that starts with a slash, as a NetCDF file can have one, makes the converter write to an absolute path. -/
theorem C80_violated_path (id : Option (List Char)) (t : List Char) (dt : Option (List Char)) (bands : List BandMeta) (ext : Option (List Char)) :
    (convertName ⟨id, some ('/' :: t), dt⟩ bands ext).head? = some '/' := by
  unfold convertName outputFileName
  simp [escape]

/-- Two datasets of the same satellite and time with several bands are written by --conv to the same file, whatever the bands. -/
theorem C80_violated_bands (ds : Meta) (b1 b2 c1 c2 : BandMeta) (bs cs : List BandMeta) (ext : Option (List Char)) :
    convertName ds (b1 :: b2 :: bs) ext = convertName ds (c1 :: c2 :: cs) ext := rfl

end Msat.Props
