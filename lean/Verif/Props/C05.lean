import Verif.Lemmas.PrologueDefects

/-
C05 Prologue and epilogue structures are read field by field without gap or overlap.

The specification is a layout (Spec/Layout.lean, Spec/Prologue.lean: for every structure the members
in the order of the class declaration, with their width); the code is the list of reads made by its
`read_from` (Model/Prologue.lean), with its own offsets.
-/
namespace Msat.Props
open Msat Spec Layout

theorem run_of_agrees {f : ReadFrom} {l : Lay} (h : Agrees f l) (ρ : Path → Val) (pre post : Bytes)
    (hr : l.InRange ρ) :
    run f (pre ++ l.encode ρ ++ post) pre.length
      = .ok ((l.reads 0).map (fun r => (r.path, ρ r.path)), l.size) := by
  have key : ∀ rs : List Read, (∀ r ∈ rs, r ∈ l.reads pre.length) →
      runReads rs (pre ++ l.encode ρ ++ post) = .ok (rs.map fun r => (r.path, ρ r.path)) := by
    intro rs
    induction rs with
    | nil => intro _; rfl
    | cons r rs ih =>
      intro hm
      simp only [runReads, l.readField_encode ρ pre post hr r (hm r (by simp)), Outcome.ok_bind,
        ih (fun r h => hm r (by simp [h])), List.map_cons]
      rfl
  simp only [run, h pre.length, key _ (fun r h => h), Outcome.ok_bind]
  rw [Lay.reads_zero l pre.length, List.map_map]
  rfl

/-- The structures of the prologue and of the epilogue, with the name, the reader, the documented
members and the documented length. -/
structure Structure where
  name : String
  reader : ReadFrom
  layout : Lay
  len : Nat

/-- The structures read exactly as documented. -/
def exactStructures : List Structure := [
  ⟨"SatelliteStatus", satelliteStatus, satelliteStatusLay, 60134⟩,
  ⟨"ImageAcquisition", imageAcquisition, imageAcquisitionLay, 700⟩,
  ⟨"CelestialEvents", celestialEvents, celestialEventsLay, 326058⟩,
  ⟨"ImageDescription", imageDescription, imageDescriptionLay, 101⟩,
  ⟨"ImageProdStats", imageProdStats, imageProdStatsLay, 340⟩,
  ⟨"RadiometricQuality", radiometricQuality, radiometricQualityLay, 371256⟩,
  ⟨"GeometricQuality", geometricQuality, geometricQualityLay, 2916⟩,
  ⟨"TimelinComple", timelinComple, timelinCompleLay, 132⟩]

/-- The structures of which some members are misread. -/
def inexactStructures : List Structure := [
  ⟨"RadiometricProc", radiometricProc, radiometricProcLay, 20815⟩,
  ⟨"GeometricProc", geometricProc, geometricProcLay, 17653⟩,
  ⟨"IMPFConfiguration", iMPFConfiguration, iMPFConfigurationLay, 19786⟩,
  ⟨"NavigExtrResult", navigExtrResult, navigExtrResultLay, 5680⟩]

/-- Reading an encoded structure anywhere in a buffer assigns to every member, in order, the value
that was encoded, and returns the documented length. -/
theorem C05_exact_structures (s : Structure) (hs : s ∈ exactStructures) (ρ : Path → Val)
    (pre post : Bytes) (hr : s.layout.InRange ρ) :
    run s.reader (pre ++ s.layout.encode ρ ++ post) pre.length
      = .ok ((s.layout.reads 0).map (fun r => (r.path, ρ r.path)), s.len) ∧
    (s.layout.encode ρ).length = s.len := by
  have : Agrees s.reader s.layout ∧ s.layout.size = s.len := by
    simp only [exactStructures, List.mem_cons, List.not_mem_nil, or_false] at hs
    rcases hs with rfl | rfl | rfl | rfl | rfl | rfl | rfl | rfl
    · exact ⟨satelliteStatus_agrees, satelliteStatusLay_size⟩
    · exact ⟨imageAcquisition_agrees, imageAcquisitionLay_size⟩
    · exact ⟨celestialEvents_agrees, celestialEventsLay_size⟩
    · exact ⟨imageDescription_agrees, imageDescriptionLay_size⟩
    · exact ⟨imageProdStats_agrees, imageProdStatsLay_size⟩
    · exact ⟨radiometricQuality_agrees, radiometricQualityLay_size⟩
    · exact ⟨geometricQuality_agrees, geometricQualityLay_size⟩
    · exact ⟨timelinComple_agrees, timelinCompleLay_size⟩
  rw [Lay.encode_length _ _ hr, run_of_agrees this.1 ρ pre post hr, this.2]
  exact ⟨rfl, rfl⟩

/-- Values for every member of every structure: zero in the type of the member. -/
def zeroOf : Kind → Val
  | .u1 | .flag | .u2 | .u4 | .r4 | .r8 | .cuc => .nat 0
  | .i4 => .int 0
  | .t6 | .t8 | .t10 => .time 0 0 0 0
  | .mem n _ => .bytes (List.replicate n 0)

/-- In-range values exist for a structure (`TimelinComple`), and are recovered. -/
example : ∃ ρ, timelinCompleLay.InRange ρ ∧ ρ [.f "Timeliness", .f "MaxDelay"] = .nat 0x42280000 := by
  refine ⟨fun p => if p = [.f "Timeliness", .f "MaxDelay"] then .nat 0x42280000 else
      match (timelinCompleLay.reads 0).find? (fun r => r.path = p) with
      | some r => zeroOf r.kind
      | none => .nat 0, ?_, ?_⟩
  · have : (timelinCompleLay.reads 0).all (fun r => r.kind == .u2 || r.kind == .r4) = true := by
      decide +kernel
    intro r hr
    have hk := List.all_eq_true.1 this r hr
    have hu : ∀ v, v < 2 ^ 16 → r.kind.InRange (.nat v) := by
      intro v hv
      simp only [Bool.or_eq_true, beq_iff_eq] at hk
      rcases hk with hk | hk <;> rw [hk] <;> simp only [Kind.InRange] <;> omega
    have hp : (timelinCompleLay.reads 0).all
        (fun r => r.path != [.f "Timeliness", .f "MaxDelay"] || r.kind == .r4) = true := by
      decide +kernel
    have hp := List.all_eq_true.1 hp r hr
    have ht : (timelinCompleLay.reads 0).all (fun r => zeroOf r.kind == .nat 0) = true := by
      decide +kernel
    by_cases e : r.path = [.f "Timeliness", .f "MaxDelay"]
    · simp only [e, bne_self_eq_false, Bool.false_or, beq_iff_eq] at hp
      rw [hp]; simp [e, Kind.InRange]
    · simp only [e, if_false]
      split
      · rename_i r' hr'
        have := List.all_eq_true.1 ht r' (List.mem_of_find?_eq_some hr')
        rw [beq_iff_eq] at this
        rw [this]; exact hu 0 (by decide)
      · exact hu 0 (by decide)
  · simp

/-- The ranges read into the members of a structure are consecutive, disjoint, inside the structure,
and together with the declared spare bytes have exactly the documented length. -/
theorem C05_tiling (s : Structure) (hs : s ∈ exactStructures) (base : Nat) :
    (s.reader base).1.Pairwise (fun r r' => r.off + r.kind.width ≤ r'.off) ∧
    (∀ r ∈ (s.reader base).1, base ≤ r.off ∧ r.off + r.kind.width ≤ base + s.len) ∧
    (((s.reader base).1.map fun r => r.kind.width).sum + s.layout.spareBytes = s.len) ∧
    (s.reader base).2 = s.len := by
  have : Agrees s.reader s.layout ∧ s.layout.size = s.len := by
    simp only [exactStructures, List.mem_cons, List.not_mem_nil, or_false] at hs
    rcases hs with rfl | rfl | rfl | rfl | rfl | rfl | rfl | rfl
    · exact ⟨satelliteStatus_agrees, satelliteStatusLay_size⟩
    · exact ⟨imageAcquisition_agrees, imageAcquisitionLay_size⟩
    · exact ⟨celestialEvents_agrees, celestialEventsLay_size⟩
    · exact ⟨imageDescription_agrees, imageDescriptionLay_size⟩
    · exact ⟨imageProdStats_agrees, imageProdStatsLay_size⟩
    · exact ⟨radiometricQuality_agrees, radiometricQualityLay_size⟩
    · exact ⟨geometricQuality_agrees, geometricQualityLay_size⟩
    · exact ⟨timelinComple_agrees, timelinCompleLay_size⟩
  rw [this.1 base, ← this.2]
  exact ⟨s.layout.reads_pairwise base, s.layout.reads_bounds base, s.layout.reads_total base, rfl⟩

/-- What holds of a reader some members of which are misread. -/
theorem sound_reads {ok : Path → Bool} {f : ReadFrom} {l : Lay} (h : AgreesOn ok f l)
    (ρ : Path → Val) (pre post : Bytes) (hr : l.InRange ρ) :
    (∀ r ∈ (f pre.length).1, ok r.path = true →
      readField r.kind (pre ++ l.encode ρ ++ post) r.off = .ok (ρ r.path)) ∧
    (∀ r ∈ l.reads 0, ok r.path = true → ∃ r' ∈ (f pre.length).1, r'.path = r.path) := by
  refine ⟨fun r hm ho => ?_, fun r hm ho => ?_⟩
  · have : r ∈ (f pre.length).1.filter (fun r => ok r.path) := List.mem_filter.2 ⟨hm, ho⟩
    rw [(h _).1] at this
    exact l.readField_encode ρ pre post hr r (List.mem_filter.1 this).1
  · have : r.shift pre.length ∈ (l.reads pre.length).filter (fun r => ok r.path) := by
      rw [Lay.reads_zero]
      exact List.mem_filter.2 ⟨List.mem_map_of_mem hm, ho⟩
    rw [← (h _).1] at this
    exact ⟨_, (List.mem_filter.1 this).1, rfl⟩

/-- **Partial.** In the other structures every member but `DCRValues`, `ResamplingFunction`,
`CalibrationConstants` and the `SpinRate` of the landmarks is read, wherever it is read, with the
value that was encoded; and the length returned is the documented one.
Missing: the four excluded members, for which the claim is false (below). -/
theorem C05_inexact_structures_partial (s : Structure) (hs : s ∈ inexactStructures) (ρ : Path → Val)
    (pre post : Bytes) (hr : s.layout.InRange ρ) :
    (∀ r ∈ (s.reader pre.length).1, ¬ defective r.path →
      readField r.kind (pre ++ s.layout.encode ρ ++ post) r.off = .ok (ρ r.path)) ∧
    (∀ r ∈ s.layout.reads 0, ¬ defective r.path → ∃ r' ∈ (s.reader pre.length).1, r'.path = r.path) ∧
    (s.reader pre.length).2 = s.len ∧ (s.layout.encode ρ).length = s.len := by
  have : AgreesOn sound s.reader s.layout ∧ s.layout.size = s.len := by
    simp only [inexactStructures, List.mem_cons, List.not_mem_nil, or_false] at hs
    rcases hs with rfl | rfl | rfl | rfl
    · exact ⟨radiometricProc_on (by decide), radiometricProcLay_size⟩
    · exact ⟨geometricProc_on (fun j => by simp [sound, defective]), geometricProcLay_size⟩
    · exact ⟨iMPFConfiguration_on (fun j => by simp [sound, defective]),
        iMPFConfigurationLay_size⟩
    · exact ⟨navigExtrResult_on (fun j => by simp [sound, defective]),
        navigExtrResultLay_size⟩
  have h := sound_reads this.1 ρ pre post hr
  refine ⟨fun r hm hd => h.1 r hm (by simpa [sound] using hd),
    fun r hm hd => h.2 r hm (by simpa [sound] using hd), ?_, ?_⟩
  · rw [(this.1 _).2, this.2]
  · rw [Lay.encode_length _ _ hr, this.2]

/-- **Partial.** The whole prologue data field (as `MSG_data::read_from` walks through it). -/
theorem C05_prologue_partial (ρ : Path → Val) (post : Bytes) (hr : prologueDataLay.InRange ρ) :
    (∀ r ∈ (prologueData 0).1, ¬ defective r.path →
      readField r.kind (prologueDataLay.encode ρ ++ post) r.off = .ok (ρ r.path)) ∧
    (∀ r ∈ prologueDataLay.reads 0, ¬ defective r.path →
      ∃ r' ∈ (prologueData 0).1, r'.path = r.path) ∧
    (prologueData 0).2 = 60134 + 700 + 326058 + 101 + 20815 + 17653 := by
  have h := sound_reads prologueData_on ρ [] post hr
  exact ⟨fun r hm hd => h.1 r hm (by simpa [sound] using hd),
    fun r hm hd => h.2 r hm (by simpa [sound] using hd),
    (prologueData_on 0).2.trans prologueDataLay_size⟩

/-- **Partial.** The whole epilogue data field: one version byte, then the structures. -/
theorem C05_epilogue_partial (ρ : Path → Val) (post : Bytes) (hr : epilogueDataLay.InRange ρ) :
    (∀ r ∈ (epilogueData 0).1, ¬ defective r.path →
      readField r.kind (epilogueDataLay.encode ρ ++ post) r.off = .ok (ρ r.path)) ∧
    (∀ r ∈ epilogueDataLay.reads 0, ¬ defective r.path →
      ∃ r' ∈ (epilogueData 0).1, r'.path = r.path) ∧
    (epilogueData 0).2 = 1 + 340 + 5680 + 371256 + 2916 + 132 := by
  have h := sound_reads epilogueData_on ρ [] post hr
  exact ⟨fun r hm hd => h.1 r hm (by simpa [sound] using hd),
    fun r hm hd => h.2 r hm (by simpa [sound] using hd),
    (epilogueData_on 0).2.trans epilogueDataLay_size⟩

/-! ### the claim is false of the excluded members -/

theorem runReads_ub {rs : List Read} {buf : Bytes} {vs}
    (h : ∃ r ∈ rs, readField r.kind buf r.off = .ub) : runReads rs buf ≠ .ok vs := by
  induction rs generalizing vs with
  | nil => simp at h
  | cons r rs ih =>
    intro e
    simp only [runReads] at e
    cases hv : readField r.kind buf r.off with
    | ok v =>
      rw [hv, Outcome.ok_bind] at e
      cases hw : runReads rs buf with
      | ok w =>
        obtain ⟨q, hq, hu⟩ := h
        rcases List.mem_cons.1 hq with rfl | hq
        · rw [hv] at hu; exact absurd hu (by simp)
        · exact ih ⟨q, hq, hu⟩ hw
      | _ => rw [hw] at e; exact absurd e (by intro h; cases h)
    | _ => rw [hv] at e; exact absurd e (by intro h; cases h)

/-- The read of `DCRValues` copies 63 bytes from the start of the structure into an array of 24
bytes: reading the radiometric processing structure is undefined whatever the file contains. -/
theorem C05_violated_DCRValues (buf : Bytes) (base : Nat) :
    ∀ x, run blackBodyDataUsed buf base ≠ .ok x := by
  intro x e
  have hm : (⟨[.f "DCRValues"], base, .mem 63 24⟩ : Read) ∈ (blackBodyDataUsed base).1 := by
    unfold blackBodyDataUsed body
    iterate 18 (rw [block]; refine List.mem_append_right _ ?_)
    rw [block]
    exact List.mem_append_left _ (List.mem_singleton.2 rfl)
  have := runReads_ub (vs := (x.1)) (buf := buf) ⟨_, hm, rfl⟩
  simp only [run] at e
  cases hv : runReads (blackBodyDataUsed base).1 buf with
  | ok v => exact runReads_ub (vs := v) ⟨_, hm, rfl⟩ hv
  | _ => rw [hv] at e; exact absurd e (by intro h; cases h)

/-- The documented place of `DCRValues` is offset 479 of the structure. -/
example : (⟨[.f "DCRValues"], 479, .mem 63 63⟩ : Read) ∈ blackBodyDataUsedLay.reads 0 := by
  decide +kernel

/-- All twelve `ResamplingFunction` members are read from the byte documented to hold the first. -/
theorem C05_violated_ResamplingFunction : ∀ j < 12,
    (⟨[.f "ResamplingFunction", .i j], 17641, .u1⟩ : Read) ∈ (geometricProc 0).1 ∧
    (⟨[.f "ResamplingFunction", .i j], 17641 + j, .u1⟩ : Read) ∈ geometricProcLay.reads 0 := by
  intro j hj
  constructor
  · agree [geometricProc, call_eq optAxisDistances_agrees, optAxisDistancesLay_size,
      call_eq earthModel_agrees, earthModelLay_size, List.mem_append, List.mem_flatMap, List.mem_range]
    exact .inr (.inr (.inr ⟨j, hj, by simp⟩))
  · agree [geometricProcLay, optAxisDistancesLay_size, earthModelLay_size, List.mem_append,
      List.mem_flatMap, List.mem_range]
    exact .inr (.inr (.inr ⟨j, hj, by simp⟩))

/-- `CalibrationConstants[j]` is read 8 bytes, instead of 4, after the previous one. -/
theorem C05_violated_CalibrationConstants : ∀ j < 12,
    (⟨[.f "CalibrationConstants", .i j], 768 + 8 * j, .r4⟩ : Read) ∈ (blackBodyDataWarmStart 0).1 ∧
    (⟨[.f "CalibrationConstants", .i j], 768 + 4 * j, .r4⟩ : Read)
      ∈ blackBodyDataWarmStartLay.reads 0 := by
  have h : (List.range 12).all (fun j => (blackBodyDataWarmStart 0).1.contains
      (⟨[.f "CalibrationConstants", .i j], 768 + 8 * j, .r4⟩ : Read) &&
      (blackBodyDataWarmStartLay.reads 0).contains
      (⟨[.f "CalibrationConstants", .i j], 768 + 4 * j, .r4⟩ : Read)) = true := by decide +kernel
  intro j hj
  have := List.all_eq_true.1 h j (List.mem_range.2 hj)
  simpa using this

theorem ok_of {α : Type} {o : Outcome α} {p : α → Bool}
    (h : (match o with | .ok a => p a | _ => false) = true) : ∃ a, o = .ok a ∧ p a = true := by
  cases o with
  | ok a => exact ⟨a, rfl, h⟩
  | _ => exact absurd h (by simp)

/-- A landmark with a spin rate and a deviation. -/
def landmark : Path → Val
  | [.f "ObservationTime"] => .time 0 0 0 0
  | [.f "LandmarkId"] => .nat 7
  | [.f "SpinRate"] => .nat 0x4059000000000000
  | _ => .nat 0

/-- The `SpinRate` of a landmark observation (100 revolutions per minute here) comes out as another
number: it is read two bytes too far, over the bytes of the following member. -/
theorem C05_violated_landmark_SpinRate : landmarkObservationLay.InRange landmark ∧
    ∃ vs n, run landmarkObservation (landmarkObservationLay.encode landmark) 0 = .ok (vs, n) ∧
      ([.f "SpinRate"], Val.nat 0) ∈ vs ∧ landmark [.f "SpinRate"] = .nat 0x4059000000000000 := by
  refine ⟨?_, ?_⟩
  · have : ∀ r ∈ landmarkObservationLay.reads 0, r.kind.InRange (landmark r.path) := by
      simp [landmarkObservationLay, Lay.struct, Lay.reads, u2, r8, t8, Read.under, landmark,
        Kind.InRange]
    exact this
  · obtain ⟨x, h1, h2⟩ := ok_of (o := run landmarkObservation (landmarkObservationLay.encode landmark) 0)
      (p := fun x => x.1.contains ([.f "SpinRate"], Val.nat 0)) (by decide +kernel)
    exact ⟨x.1, x.2, h1, by simpa using h2, rfl⟩

/-- A key message with key number 1 for station 2. -/
def aKey : Path → Val
  | [.f "User_Station_number"] => .nat 2
  | [.f "Key_Number"] => .nat 1
  | [.f "Public_key"] => .bytes (List.replicate 192 65)
  | _ => .nat 0

/-- The number and the bytes of an encryption key are read one byte early: the key number is the low
byte of the station number, the key starts with the key number and loses its last byte. -/
theorem C05_violated_key_message : keyMessageLay.InRange aKey ∧
    ∃ vs n, run keyMessage (keyMessageLay.encode aKey) 0 = .ok (vs, n) ∧
      ([.f "Key_Number"], Val.nat 2) ∈ vs ∧
      ([.f "Public_key"], Val.bytes (1 :: List.replicate 191 65)) ∈ vs := by
  refine ⟨?_, ?_⟩
  · intro r hr
    have : r ∈ [(⟨[.f "User_Station_number"], 0, .u2⟩ : Read), ⟨[.f "Key_Number"], 2, .u1⟩,
        ⟨[.f "Public_key"], 3, .mem 192 192⟩, ⟨[.f "Public_Key_CRC"], 195, .u2⟩] := hr
    simp only [List.mem_cons, List.not_mem_nil, or_false] at this
    rcases this with rfl | rfl | rfl | rfl
    · exact (by decide : (2 : Nat) < 2 ^ 16)
    · exact (by decide : (1 : Nat) < 2 ^ 8)
    · exact ⟨List.length_replicate, Nat.le_refl _⟩
    · exact (by decide : (0 : Nat) < 2 ^ 16)
  · obtain ⟨x, h1, h2⟩ := ok_of (o := run keyMessage (keyMessageLay.encode aKey) 0)
      (p := fun x => x.1.contains ([.f "Key_Number"], Val.nat 2) &&
        x.1.contains ([.f "Public_key"], Val.bytes (1 :: List.replicate 191 65))) (by decide +kernel)
    rw [Bool.and_eq_true] at h2
    exact ⟨x.1, x.2, h1, List.contains_iff_mem.1 h2.1, List.contains_iff_mem.1 h2.2⟩

/-- **Partial.** The station number and the checksum of a key message are recovered.
Missing: the key number and the key (misread, above). -/
theorem C05_key_message_partial (ρ : Path → Val) (pre post : Bytes) (hr : keyMessageLay.InRange ρ) :
    ∀ r ∈ (keyMessage pre.length).1, r.path ≠ [.f "Key_Number"] → r.path ≠ [.f "Public_key"] →
      readField r.kind (pre ++ keyMessageLay.encode ρ ++ post) r.off = .ok (ρ r.path) := by
  have h := sound_reads (keyMessage_on (ok := fun p => p != [.f "Key_Number"] && p != [.f "Public_key"])
    (by decide) (by decide)) ρ pre post hr
  intro r hm h1 h2
  exact h.1 r hm (by simp [h1, h2])

/-! ### presence of a polynomial -/

/-- The flag that tells whether an attitude or orbit polynomial is present is set exactly when the
start time of the polynomial is not on day zero. -/
theorem C05_coefficient_present (pre post : Bytes) (day msec : Nat) (h : day < 2 ^ 16) :
    coeffPresent (pre ++ encBE 2 day ++ encBE 4 msec ++ post) pre.length
      = .ok (decide (day ≠ 0)) := by
  have e : encBE 2 day = encBE 1 (day / 256) ++ encBE 1 (day % 256) := by
    simp only [encBE, List.cons_append, List.nil_append]
    have : UInt8.ofNat day = UInt8.ofNat (day % 256) := by
      apply UInt8.toNat.inj; simp
    simp [this]
  have a1 := ui1_at pre (day / 256) (encBE 1 (day % 256) ++ (encBE 4 msec ++ post)) (by omega)
  have a2 := ui1_at (pre ++ encBE 1 (day / 256)) (day % 256) (encBE 4 msec ++ post) (by omega)
  simp only [List.length_append, encBE_length] at a2
  simp only [List.append_assoc] at a1 a2
  simp only [coeffPresent, e, List.append_assoc, a1, a2, Outcome.ok_bind]
  by_cases h0 : day / 256 = 0
  · simp only [h0, ne_eq, not_true_eq_false, if_false]
    refine congrArg Outcome.ok ?_
    by_cases h1 : day % 256 = 0
    · have : day = 0 := by omega
      simp [this]
    · have : day ≠ 0 := by omega
      simp [h1, this]
  · have : day ≠ 0 := by omega
    simp [h0, this]

example : coeffPresent ([1] ++ encBE 2 0x0100 ++ encBE 4 5 ++ []) 1 = .ok true :=
  C05_coefficient_present [1] [] 0x0100 5 (by decide)

end Msat.Props
