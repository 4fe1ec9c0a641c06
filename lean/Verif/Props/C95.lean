import Verif.Model.HritTexts
import Verif.Model.Facts
import Verif.Spec.HritTexts
import Verif.Spec.Satellites

/-
C95: the texts that are printed for numbers in the headers of xRIT files.
-/
namespace Msat.Props
open Msat HritTexts HritTextsSpec

/-! ### Every number has its text -/

/-- From a table. -/
theorem tells_of {text : Nat → String} {known : List Nat} {unknown : String} (h : ∀ a, a ∉ known → text a = unknown)
    (hd : (known.all fun a => text a != unknown && known.all fun b => text b != text a || b == a) = true) :
    Tells text known unknown := by
  refine ⟨fun a ha => ?_, h⟩
  have h1 := List.all_eq_true.1 hd a ha
  simp only [Bool.and_eq_true, bne_iff_ne, ne_eq, List.all_eq_true, Bool.or_eq_true, beq_iff_eq] at h1
  refine ⟨h1.1, fun b hb => ?_⟩
  by_cases hk : b ∈ known
  · exact (h1.2 b hk).resolve_left fun hn => hn hb
  · exact absurd (hb.symm.trans (h b hk)) h1.1

/-- Satellites: a name for each of them, a text for none and one for what is not known. -/
theorem C95_spacecraft : Tells spacecraftName (0 :: spacecrafts.map Prod.fst) "Unknown" ∧
    ∀ n name, (n, name) ∈ spacecrafts → spacecraftName n = name := by
  refine ⟨tells_of (fun a ha => ?_) (by decide +kernel), fun n name h => ?_⟩
  · simp only [spacecrafts, List.map_cons, List.map_nil, List.mem_cons, List.not_mem_nil, or_false, not_or] at ha
    unfold spacecraftName
    split <;> first | rfl | (exfalso; omega)
  · have : (spacecrafts.all fun p => spacecraftName p.1 == p.2) = true := by decide +kernel
    have := List.all_eq_true.1 this _ h
    exact eq_of_beq this

/-- They are the names of the library, for the satellites it knows. -/
theorem C95_agrees (name : String) (wmo hrit : Int) (h : (name, wmo, some hrit) ∈ SatSpec.satellites) :
    spacecraftName hrit.toNat = name ∧ Facts.spacecraftName (Facts.fromHRIT hrit) = name := by
  have : (SatSpec.satellites.all fun p => match p.2.2 with
      | some k => spacecraftName k.toNat == p.1 && Facts.spacecraftName (Facts.fromHRIT k) == p.1
      | none => true) = true := by decide +kernel
  have := List.all_eq_true.1 this _ h
  simp only [Bool.and_eq_true, beq_iff_eq] at this
  exact this

theorem C95_filetype : ∃ unknown, Tells filetype [0, 1, 2, 3, 128, 129, 130, 144] unknown := by
  refine ⟨"MSG Mission Unknown file typecode as of " ++ "CGMS-03 LRIT-HRIT Global Specification, V. 2.6 19 Aug 1999", tells_of (fun a ha => ?_) ?_⟩
  · simp only [List.mem_cons, List.not_mem_nil, or_false, not_or] at ha
    unfold filetype
    split <;> first | rfl | (exfalso; omega)
  · decide +kernel

theorem C95_compression : ∃ unknown, Tells compression [0, 1, 2] unknown := by
  refine ⟨"MSG Compression flag unknown.", tells_of (fun a ha => ?_) ?_⟩
  · simp only [List.mem_cons, List.not_mem_nil, or_false, not_or] at ha
    unfold compression
    split <;> first | rfl | (exfalso; omega)
  · decide +kernel

theorem C95_format : ∃ unknown, Tells dataFormat [0, 1, 2, 3] unknown := by
  refine ⟨"MSG undefined format for data field", tells_of (fun a ha => ?_) ?_⟩
  · simp only [List.mem_cons, List.not_mem_nil, or_false, not_or] at ha
    unfold dataFormat
    split <;> first | rfl | (exfalso; omega)
  · decide +kernel

/-- The text is that of the code, and not of another. -/
theorem C95_meaning : (∀ n text, (n, text) ∈ filetypes → filetype n = "MSG " ++ text) ∧
    (∀ n text, (n, text) ∈ compressions → compression n = "MSG " ++ text ++ " Compression") ∧
    ∀ n text, (n, text) ∈ dataFormats → dataFormat n = "MSG " ++ text ++ " data field" := by
  refine ⟨fun n t h => ?_, fun n t h => ?_, fun n t h => ?_⟩
  · have : (filetypes.all fun p => filetype p.1 == "MSG " ++ p.2) = true := by decide +kernel
    exact eq_of_beq (List.all_eq_true.1 this _ h)
  · have : (compressions.all fun p => compression p.1 == "MSG " ++ p.2 ++ " Compression") = true := by decide +kernel
    exact eq_of_beq (List.all_eq_true.1 this _ h)
  · have : (dataFormats.all fun p => dataFormat p.1 == "MSG " ++ p.2 ++ " data field") = true := by decide +kernel
    exact eq_of_beq (List.all_eq_true.1 this _ h)

example : (1, "Lossless") ∈ compressions ∧ (128, "Repeat Cycle Prologue") ∈ filetypes ∧ (2, "T.4 coded") ∈ dataFormats := by decide

theorem C95_quality : (∃ unknown, Tells validity [0, 1, 2, 3, 4] unknown) ∧ (∃ unknown, Tells radiometricQuality [0, 1, 2, 3, 4] unknown) ∧
    (∃ unknown, Tells geometricQuality [0, 1, 2, 3, 4] unknown) ∧
    (∀ n text, (n, text) ∈ qualities → radiometricQuality n = text ∧ geometricQuality n = text) ∧
    ∀ n text, (n, text) ∈ validities → n ≠ 4 → validity n = text := by
  refine ⟨⟨"Validity not defined", tells_of (fun a ha => ?_) ?_⟩, ⟨"Radiometric quality undefined", tells_of (fun a ha => ?_) ?_⟩,
    ⟨"Geometric quality undefined", tells_of (fun a ha => ?_) ?_⟩, fun n t h => ?_,
    fun n t h hn => ?_⟩
  · simp only [List.mem_cons, List.not_mem_nil, or_false, not_or] at ha
    unfold validity
    split <;> first | rfl | (exfalso; omega)
  · decide +kernel
  · simp only [List.mem_cons, List.not_mem_nil, or_false, not_or] at ha
    unfold radiometricQuality
    split <;> first | rfl | (exfalso; omega)
  · decide +kernel
  · simp only [List.mem_cons, List.not_mem_nil, or_false, not_or] at ha
    unfold geometricQuality
    split <;> first | rfl | (exfalso; omega)
  · decide +kernel
  · simp only [qualities, List.mem_cons, Prod.mk.injEq, List.not_mem_nil, or_false] at h
    rcases h with ⟨rfl, rfl⟩ | ⟨rfl, rfl⟩ | ⟨rfl, rfl⟩ | ⟨rfl, rfl⟩ | ⟨rfl, rfl⟩ <;> exact ⟨rfl, rfl⟩
  · simp only [validities, List.mem_cons, Prod.mk.injEq, List.not_mem_nil, or_false] at h
    rcases h with ⟨rfl, rfl⟩ | ⟨rfl, rfl⟩ | ⟨rfl, rfl⟩ | ⟨rfl, rfl⟩ | ⟨rfl, rfl⟩ <;> first | rfl | exact absurd rfl hn

/-! ### Channels -/

/-- The wavelength is in the text of the channel. -/
theorem C95_wavelength (i : Imager) (hi : i ∈ [seviri, goes, gms, polar]) (s : Nat) (hs : s ∈ i.satellites) (c : Nat) (wave : String)
    (hc : (c, wave) ∈ i.channels) : ∃ before, channelName s c = before ++ " " ++ wave ++ " channel" := by
  have h : ([seviri, goes, gms, polar].all fun i => i.satellites.all fun s => i.channels.all fun p =>
      channelName s p.1 == String.ofList ((channelName s p.1).toList.take ((channelName s p.1).length - (p.2.length + 9))) ++ " " ++ p.2 ++
        " channel") = true := by decide +kernel
  have h1 := List.all_eq_true.1 (List.all_eq_true.1 (List.all_eq_true.1 h i hi) s hs) _ hc
  exact ⟨_, eq_of_beq h1⟩

/-- For SEVIRI it is that of the library. -/
theorem C95_seviri (c : Nat) (name : String) (tenths : Nat) (thermal : Bool)
    (h : ((c : Int), name, (tenths : Int), thermal) ∈ SatSpec.channels) (hrv : c ≠ 12) :
    (c, toString (tenths / 10) ++ "." ++ toString (tenths % 10)) ∈ seviri.channels := by
  have hall : (SatSpec.channels.all fun p => p.1 == 12 ||
      seviri.channels.contains (p.1.toNat, toString (p.2.2.1.toNat / 10) ++ "." ++ toString (p.2.2.1.toNat % 10))) = true := by
    decide +kernel
  have := List.all_eq_true.1 hall _ h
  simp only [Bool.or_eq_true, beq_iff_eq, List.contains_iff_mem, Int.toNat_natCast] at this
  exact this.resolve_left (by omega)

theorem seviri_tells : Tells seviriChannel [0, 1, 2, 3, 4, 5, 6, 7, 8, 9, 10, 11, 12] (seviriChannel 13) := by
  refine tells_of (fun a ha => ?_) (by decide +kernel)
  simp only [List.mem_cons, List.not_mem_nil, or_false, not_or] at ha
  unfold seviriChannel
  split <;> first | rfl | (exfalso; omega)

theorem goes_tells : Tells goesChannel [1, 2, 3, 4, 5] (goesChannel 13) := by
  refine tells_of (fun a ha => ?_) (by decide +kernel)
  simp only [List.mem_cons, List.not_mem_nil, or_false, not_or] at ha
  unfold goesChannel
  split <;> first | rfl | (exfalso; omega)

theorem gms_tells : Tells gmsChannel [1, 2, 3, 4, 5] (gmsChannel 13) := by
  refine tells_of (fun a ha => ?_) (by decide +kernel)
  simp only [List.mem_cons, List.not_mem_nil, or_false, not_or] at ha
  unfold gmsChannel
  split <;> first | rfl | (exfalso; omega)

theorem polar_tells : Tells polarChannel [1, 2, 3, 4, 5, 6] (polarChannel 13) := by
  refine tells_of (fun a ha => ?_) (by decide +kernel)
  simp only [List.mem_cons, List.not_mem_nil, or_false, not_or] at ha
  unfold polarChannel
  split <;> first | rfl | (exfalso; omega)

theorem goms_tells : Tells gomsChannel [1, 2, 3] (gomsChannel 13) := by
  refine tells_of (fun a ha => ?_) (by decide +kernel)
  simp only [List.mem_cons, List.not_mem_nil, or_false, not_or] at ha
  unfold gomsChannel
  split <;> first | rfl | (exfalso; omega)

/-- Channels of the same satellite have different texts; for SEVIRI 0 is the text for no channel. -/
theorem C95_channels (s : Nat) (hs : 0 < channelCount s) : ∃ unknown,
    Tells (channelName s) ((if s ∈ seviri.satellites then [0] else []) ++ List.range' 1 (channelCount s)) unknown := by
  by_cases h1 : s ∈ seviri.satellites
  · simp only [seviri, List.mem_cons, List.not_mem_nil, or_false] at h1
    rcases h1 with rfl | rfl | rfl | rfl <;> exact ⟨_, seviri_tells⟩
  by_cases h2 : s ∈ goes.satellites
  · simp only [goes, List.mem_cons, List.not_mem_nil, or_false] at h2
    rcases h2 with rfl | rfl | rfl | rfl | rfl | rfl <;> exact ⟨_, goes_tells⟩
  by_cases h3 : s ∈ gms.satellites
  · simp only [gms, List.mem_cons, List.not_mem_nil, or_false] at h3
    rcases h3 with rfl | rfl | rfl | rfl | rfl <;> exact ⟨_, gms_tells⟩
  by_cases h4 : s ∈ polar.satellites
  · simp only [polar, List.mem_cons, List.not_mem_nil, or_false] at h4
    rcases h4 with rfl | rfl | rfl | rfl | rfl | rfl | rfl <;> exact ⟨_, polar_tells⟩
  by_cases h5 : s ∈ [19001, 19002, 19003]
  · simp only [List.mem_cons, List.not_mem_nil, or_false] at h5
    rcases h5 with rfl | rfl | rfl <;> exact ⟨_, goms_tells⟩
  rw [channelCount, if_neg h1, if_neg h2, if_neg h3, if_neg h4, if_neg h5] at hs
  omega

/-! ### What goes wrong -/

/-- Satellites that have a name here and that the library takes for no satellite. -/
theorem C95_violated_unknown (n : Nat) (h : n ∈ [150, 151, 17013, 19003, 20006]) :
    (∃ name, (n, name) ∈ spacecrafts ∧ spacecraftName n = name) ∧ Facts.fromHRIT n = SatSpec.noneWMO := by
  simp only [List.mem_cons, List.not_mem_nil, or_false] at h
  rcases h with rfl | rfl | rfl | rfl | rfl
  all_goals exact ⟨⟨_, by decide +kernel, rfl⟩, by decide⟩

/-- Replaced pixels are said to be missing. -/
theorem C95_violated_validity : (4, "Based on replaced or interpolated data") ∈ validities ∧
    validity 4 = "Based on missing or interpolated data" := by decide +kernel

/-- The channels of the Meteosat satellites of the first generation have no text, and neither have those of satellites that are
not known. -/
theorem C95_violated_meteosat (s : Nat) (h : channelCount s = 0) (c : Nat) : channelName s c = "No channel information" := by
  unfold channelCount at h
  split at h
  · omega
  rename_i h1
  split at h
  · omega
  rename_i h2
  split at h
  · omega
  rename_i h3
  split at h
  · omega
  rename_i h4
  split at h
  · omega
  rename_i h5
  simp only [seviri, goes, gms, polar, List.mem_cons, List.not_mem_nil, or_false, not_or] at h1 h2 h3 h4 h5
  unfold channelName
  split <;> first | rfl | (exfalso; omega)

/-! ### Cases -/

example : ("MSG2", (56 : Int), some (322 : Int)) ∈ SatSpec.satellites := by decide
example : gms ∈ [seviri, goes, gms, polar] ∧ 20005 ∈ gms.satellites ∧ (3, "6.7") ∈ gms.channels :=
  ⟨by simp, by decide, by decide⟩
example : (((9 : Nat) : Int), "IR_108", ((108 : Nat) : Int), true) ∈ SatSpec.channels := by decide
example : 0 < channelCount 322 ∧ channelCount 19 = 0 := by decide

end Msat.Props
