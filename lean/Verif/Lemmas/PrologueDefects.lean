import Verif.Lemmas.Prologue
import Verif.Model.HritData

/-
The structures in which some member is not read from its documented place: agreement on the other
members.
-/
set_option linter.unusedSimpArgs false
namespace Msat.Layout

/-- A `read_from` reads the members selected by `ok` as a layout says, and returns its size. -/
def AgreesOn (ok : Path → Bool) (f : ReadFrom) (l : Lay) : Prop :=
  ∀ b, (f b).1.filter (fun r => ok r.path) = (l.reads b).filter (fun r => ok r.path)
    ∧ (f b).2 = l.size

theorem Agrees.on {f : ReadFrom} {l : Lay} (h : Agrees f l) (ok : Path → Bool) : AgreesOn ok f l :=
  fun b => by rw [h b]; exact ⟨rfl, rfl⟩

theorem filter_under (ok : Path → Bool) (P : Path) (xs : List Read) :
    (xs.map (Read.under P)).filter (fun r => ok r.path)
      = (xs.filter fun r => ok (P ++ r.path)).map (Read.under P) := by
  rw [List.filter_map]; rfl

theorem call_on {ok : Path → Bool} {f : ReadFrom} {l : Lay} {P : Path}
    (h : AgreesOn (fun p => ok (P ++ p)) f l) (b p : Nat) :
    (call P f b p).1.filter (fun r => ok r.path)
        = ((l.reads (b + p)).map (Read.under P)).filter (fun r => ok r.path)
      ∧ (call P f b p).2 = p + l.size := by
  simp only [call, filter_under, (h _).1, (h _).2, and_self]

theorem loop_call_on {ok : Path → Bool} {f : ReadFrom} {l : Lay} {P : Nat → Path}
    (h : ∀ j, AgreesOn (fun p => ok (P j ++ p)) f l) (n b p : Nat) :
    (loop n (fun j => call (P j) f) b p).1.filter (fun r => ok r.path)
        = ((List.range n).flatMap fun j =>
            (l.reads (b + p + j * l.size)).map (Read.under (P j))).filter (fun r => ok r.path)
      ∧ (loop n (fun j => call (P j) f) b p).2 = p + n * l.size := by
  induction n with
  | zero => simp [loop]
  | succ n ih =>
    simp only [loop, List.range_succ, List.flatMap_append, List.flatMap_cons, List.flatMap_nil,
      List.append_nil, List.filter_append, ih.1, ih.2, call, filter_under, (h n _).1, (h n _).2,
      Nat.succ_mul, Nat.add_assoc, and_self]

/-- A structure that is a sequence of calls: agreement member by member. -/
theorem block_on_cons {ok : Path → Bool} {s : Stmt} {ss : List Stmt} {nm : String} {l rest : Lay}
    {b p q : Nat}
    (h1 : (s b p).1.filter (fun r => ok r.path)
        = ((l.reads (b + p)).map (Read.under [.f nm])).filter (fun r => ok r.path)
      ∧ (s b p).2 = p + l.size)
    (h2 : (block ss b (p + l.size)).1.filter (fun r => ok r.path)
        = (rest.reads (b + (p + l.size))).filter (fun r => ok r.path)
      ∧ (block ss b (p + l.size)).2 = q) :
    (block (s :: ss) b p).1.filter (fun r => ok r.path)
        = ((Lay.field nm l rest).reads (b + p)).filter (fun r => ok r.path)
      ∧ (block (s :: ss) b p).2 = q := by
  simp only [block, reads_field, List.filter_append, h1.1, h1.2, h2.1, h2.2, Nat.add_assoc, and_self]

theorem block_on_nil {ok : Path → Bool} {b p : Nat} :
    (block [] b p).1.filter (fun r => ok r.path) = (Lay.done.reads (b + p)).filter (fun r => ok r.path)
      ∧ (block [] b p).2 = p := ⟨rfl, rfl⟩

theorem Agrees.stmt {f : ReadFrom} {l : Lay} (h : Agrees f l) (ok : Path → Bool) (nm : String)
    (b p : Nat) :
    (call [.f nm] f b p).1.filter (fun r => ok r.path)
        = ((l.reads (b + p)).map (Read.under [.f nm])).filter (fun r => ok r.path)
      ∧ (call [.f nm] f b p).2 = p + l.size := call_on (h.on _) b p

theorem Agrees.loopStmt {f : ReadFrom} {l : Lay} (h : Agrees f l) (ok : Path → Bool) (nm : String)
    (n b p : Nat) :
    (loop n (fun j => call [.f nm, .i j] f) b p).1.filter (fun r => ok r.path)
        = (((Lay.arr n l).reads (b + p)).map (Read.under [.f nm])).filter (fun r => ok r.path)
      ∧ (loop n (fun j => call [.f nm, .i j] f) b p).2 = p + (Lay.arr n l).size := by
  have := loop_call_on (fun j => h.on (fun p => ok ([.f nm, .i j] ++ p))) n b p
  rw [under_arr]
  exact this

/-! ### the defective leaves -/

set_option maxRecDepth 4000 in
theorem blackBodyDataUsed_on {ok : Path → Bool} (h : ok [.f "DCRValues"] = false) :
    AgreesOn ok blackBodyDataUsed blackBodyDataUsedLay := by
  intro b
  agree [blackBodyDataUsed, blackBodyDataUsedLay, loop_call extractedBBData_agrees,
    extractedBBDataLay_size, List.filter_append, List.filter_cons, h, and_true]
  rfl

theorem blackBodyDataUsedLay_size : blackBodyDataUsedLay.size = 967 := by
  agree [blackBodyDataUsedLay, extractedBBDataLay_size]

theorem filter_none {ok : Path → Bool} {n : Nat} {P : Nat → Path} {o : Nat → Nat} {k : Kind}
    (h : ∀ j, ok (P j) = false) :
    ((List.range n).flatMap fun j => [(⟨P j, o j, k⟩ : Read)]).filter (fun r => ok r.path) = [] := by
  induction n with
  | zero => rfl
  | succ n ih =>
    rw [List.range_succ, List.flatMap_append, List.filter_append, ih]
    simp [h]

theorem geometricProc_on {ok : Path → Bool} (h : ∀ j, ok [.f "ResamplingFunction", .i j] = false) :
    AgreesOn ok geometricProc geometricProcLay := by
  intro b
  agree [geometricProc, geometricProcLay, call_eq optAxisDistances_agrees, optAxisDistancesLay_size,
    call_eq earthModel_agrees, earthModelLay_size, List.filter_append, filter_none h, and_true]

theorem geometricProcLay_size : geometricProcLay.size = 17653 := by
  agree [geometricProcLay, optAxisDistancesLay_size, earthModelLay_size]

theorem blackBodyDataWarmStart_on {ok : Path → Bool}
    (h : ∀ j, ok [.f "CalibrationConstants", .i j] = false) :
    AgreesOn ok blackBodyDataWarmStart blackBodyDataWarmStartLay := by
  intro b
  agree [blackBodyDataWarmStart, blackBodyDataWarmStartLay, call_eq mirrorParameters_agrees,
    mirrorParametersLay_size, call_eq hKTMParameters_agrees, hKTMParametersLay_size,
    List.filter_append, filter_none h, and_true]

theorem blackBodyDataWarmStartLay_size : blackBodyDataWarmStartLay.size = 4480 := by
  agree [blackBodyDataWarmStartLay, mirrorParametersLay_size, hKTMParametersLay_size]

theorem landmarkObservation_on {ok : Path → Bool} (h : ok [.f "SpinRate"] = false) :
    AgreesOn ok landmarkObservation landmarkObservationLay := by
  intro b
  agree [landmarkObservation, landmarkObservationLay, List.filter_cons, h, and_true]
  rfl

theorem landmarkObservationLay_size : landmarkObservationLay.size = 82 := by
  agree [landmarkObservationLay]

theorem keyMessage_on {ok : Path → Bool} (h : ok [.f "Key_Number"] = false)
    (h' : ok [.f "Public_key"] = false) : AgreesOn ok keyMessage keyMessageLay := by
  intro b
  agree [keyMessage, keyMessageLay, List.filter_cons, h, h', and_true]
  rfl

/-! ### the structures that contain them -/

theorem loop_call_on_arr {ok : Path → Bool} {f : ReadFrom} {l : Lay} {nm : String}
    (h : ∀ j, AgreesOn (fun p => ok ([.f nm, .i j] ++ p)) f l) (n b p : Nat) :
    (loop n (fun j => call [.f nm, .i j] f) b p).1.filter (fun r => ok r.path)
        = (((Lay.arr n l).reads (b + p)).map (Read.under [.f nm])).filter (fun r => ok r.path)
      ∧ (loop n (fun j => call [.f nm, .i j] f) b p).2 = p + (Lay.arr n l).size := by
  rw [under_arr]
  exact loop_call_on h n b p

theorem radiometricProc_on {ok : Path → Bool}
    (h : ok [.f "BlackBodyDataUsed", .f "DCRValues"] = false) :
    AgreesOn ok radiometricProc radiometricProcLay := by
  intro b
  have e := call_on (P := [.f "BlackBodyDataUsed"]) (ok := ok) (blackBodyDataUsed_on h) b (72 + 192)
  rw [blackBodyDataUsedLay_size] at e
  simp only [Nat.reduceAdd] at e
  agree [radiometricProc, radiometricProcLay, call_eq rPSummary_agrees, rPSummaryLay_size,
    loop_call image_Calibration_agrees, image_CalibrationLay_size, call_eq mPEFCalFeedback_agrees,
    mPEFCalFeedbackLay_size, call_eq radProcMTFAdaptation_agrees, radProcMTFAdaptationLay_size,
    blackBodyDataUsedLay_size, List.filter_append, e, and_true]

theorem radiometricProcLay_size : radiometricProcLay.size = 20815 := by
  agree [radiometricProcLay, rPSummaryLay_size, image_CalibrationLay_size, mPEFCalFeedbackLay_size,
    radProcMTFAdaptationLay_size, blackBodyDataUsedLay_size]

theorem warmStartParms_on {ok : Path → Bool}
    (h : ∀ j, ok [.f "BlackBodyDataWarmStart", .f "CalibrationConstants", .i j] = false) :
    AgreesOn ok warmStartParms warmStartParmsLay := by
  intro b
  have e := call_on (P := [.f "BlackBodyDataWarmStart"]) (ok := ok) (blackBodyDataWarmStart_on h) b
    (1527 * 8 + 24 + 8 + 42 * 12)
  rw [blackBodyDataWarmStartLay_size] at e
  simp only [Nat.reduceAdd, Nat.reduceMul] at e
  have e2 : (List.range 2).flatMap (fun j =>
      [(⟨[.f "ScanningLawVariation", .i j], b + (12240 + j * 4), .r4⟩ : Read)])
      = [⟨[.f "ScanningLawVariation", .i 0], b + 12240, .r4⟩,
         ⟨[.f "ScanningLawVariation", .i 1], b + 12244, .r4⟩] := rfl
  agree [warmStartParms, warmStartParmsLay, loop_call equalisationParms_agrees,
    equalisationParmsLay_size, blackBodyDataWarmStartLay_size, List.filter_append, e, e2, and_true]
  simp only [List.filter_append, List.filter_cons, e]

theorem warmStartParmsLay_size : warmStartParmsLay.size = 17232 := by
  agree [warmStartParmsLay, equalisationParmsLay_size, blackBodyDataWarmStartLay_size]

theorem iMPFConfiguration_on {ok : Path → Bool}
    (h : ∀ j, ok [.f "WarmStartParms", .f "BlackBodyDataWarmStart", .f "CalibrationConstants", .i j]
      = false) : AgreesOn ok iMPFConfiguration iMPFConfigurationLay := by
  intro b
  have e := call_on (P := [.f "WarmStartParms"]) (ok := ok) (warmStartParms_on h) b (4 + 50 * 51)
  rw [warmStartParmsLay_size] at e
  simp only [Nat.reduceAdd, Nat.reduceMul] at e
  agree [iMPFConfiguration, iMPFConfigurationLay, call_eq gPConfigItemVersion_agrees,
    gPConfigItemVersionLay_size, loop_call sUDetail_agrees, sUDetailLay_size, warmStartParmsLay_size,
    List.filter_append, e, and_true]

theorem iMPFConfigurationLay_size : iMPFConfigurationLay.size = 19786 := by
  agree [iMPFConfigurationLay, gPConfigItemVersionLay_size, sUDetailLay_size, warmStartParmsLay_size]

theorem navigExtrResult_on {ok : Path → Bool}
    (h : ∀ j, ok [.f "ExtractedLandmarks", .i j, .f "SpinRate"] = false) :
    AgreesOn ok navigExtrResult navigExtrResultLay := by
  intro b
  refine block_on_cons (horizonObservation_agrees.loopStmt ok _ _ _ _)
    (block_on_cons (starObservation_agrees.loopStmt ok _ _ _ _)
      (block_on_cons (loop_call_on_arr (fun j => landmarkObservation_on (h j)) _ _ _) ?_))
  refine ⟨rfl, ?_⟩
  agree [navigExtrResultLay, horizonObservationLay_size, starObservationLay_size,
    landmarkObservationLay_size]

theorem navigExtrResultLay_size : navigExtrResultLay.size = 5680 := by
  agree [navigExtrResultLay, horizonObservationLay_size, starObservationLay_size,
    landmarkObservationLay_size]

/-! ### the whole data fields -/

/-- The members that the code reads from their documented place. -/
def sound (p : Path) : Bool := !defective p

theorem radiometricProc_ok : AgreesOn (fun p => sound ([.f "radiometric_proc"] ++ p))
    radiometricProc radiometricProcLay := radiometricProc_on (by decide)

theorem geometricProc_ok : AgreesOn (fun p => sound ([.f "geometric_proc"] ++ p))
    geometricProc geometricProcLay :=
  geometricProc_on (fun j => by simp [sound, defective, List.elem])

theorem navigExtrResult_ok : AgreesOn (fun p => sound ([.f "navig_result"] ++ p))
    navigExtrResult navigExtrResultLay :=
  navigExtrResult_on (fun j => by simp [sound, defective, List.elem])

/-- A statement reads, but for what `ok` excludes, member `nm` of layout `l`. -/
def StmtOn (ok : Path → Bool) (s : Stmt) (nm : String) (l : Lay) : Prop := ∀ b p,
    (s b p).1.filter (fun r => ok r.path)
        = ((l.reads (b + p)).map (Read.under [.f nm])).filter (fun r => ok r.path)
      ∧ (s b p).2 = p + l.size

/-- A list of statements reads, but for what `ok` excludes, layout `l`. -/
def BlockOn (ok : Path → Bool) (ss : List Stmt) (l : Lay) : Prop := ∀ b p,
    (block ss b p).1.filter (fun r => ok r.path) = (l.reads (b + p)).filter (fun r => ok r.path)
      ∧ (block ss b p).2 = p + l.size

theorem BlockOn.nil {ok : Path → Bool} : BlockOn ok [] .done := fun _ _ => ⟨rfl, rfl⟩

theorem BlockOn.cons {ok : Path → Bool} {s : Stmt} {ss : List Stmt} {nm : String} {l rest : Lay}
    (h1 : StmtOn ok s nm l) (h2 : BlockOn ok ss rest) : BlockOn ok (s :: ss) (.field nm l rest) := by
  intro b p
  have := block_on_cons (h1 b p) (h2 b (p + l.size))
  refine ⟨this.1, this.2.trans ?_⟩
  simp only [Lay.size]; omega

theorem StmtOn.call {ok : Path → Bool} {f : ReadFrom} {l : Lay} {nm : String}
    (h : AgreesOn (fun p => ok ([.f nm] ++ p)) f l) : StmtOn ok (Layout.call [.f nm] f) nm l :=
  fun b p => call_on h b p

theorem StmtOn.of_agrees {ok : Path → Bool} {f : ReadFrom} {l : Lay} (h : Agrees f l) (nm : String) :
    StmtOn ok (Layout.call [.f nm] f) nm l := fun b p => h.stmt ok nm b p

theorem prologueData_on : AgreesOn sound prologueData prologueDataLay := by
  have : BlockOn sound _ _ :=
    .cons (.of_agrees satelliteStatus_agrees "sat_status")
    (.cons (.of_agrees imageAcquisition_agrees "image_acquisition")
    (.cons (.of_agrees celestialEvents_agrees "celestial_events")
    (.cons (.of_agrees imageDescription_agrees "image_description")
    (.cons (.call (nm := "radiometric_proc") radiometricProc_ok)
    (.cons (.call (nm := "geometric_proc") geometricProc_ok) .nil)))))
  intro b
  have := this b 0
  rw [Nat.add_zero, Nat.zero_add] at this
  exact this

theorem prologueDataLay_size :
    prologueDataLay.size = 60134 + 700 + 326058 + 101 + 20815 + 17653 := by
  agree [prologueDataLay, satelliteStatusLay_size, imageAcquisitionLay_size, celestialEventsLay_size,
    imageDescriptionLay_size, radiometricProcLay_size, geometricProcLay_size]

theorem epilogueData_on : AgreesOn sound epilogueData epilogueDataLay := by
  have : BlockOn sound _ _ :=
    .cons (.of_agrees imageProdStats_agrees "product_stats")
    (.cons (.call (nm := "navig_result") navigExtrResult_ok)
    (.cons (.of_agrees radiometricQuality_agrees "radiometric_qlty")
    (.cons (.of_agrees geometricQuality_agrees "geometric_qlty")
    (.cons (.of_agrees timelinComple_agrees "timelin_comple") .nil))))
  intro b
  have := this b 1
  have e2 : ∀ ss b, body (adv 1 :: ss) b = block ss b 1 := by
    intro ss b
    simp only [body, block, adv, List.nil_append, Nat.zero_add]
  rw [epilogueData, e2, epilogueDataLay, reads_skip]
  exact this

theorem epilogueDataLay_size :
    epilogueDataLay.size = 1 + 340 + 5680 + 371256 + 2916 + 132 := by
  agree [epilogueDataLay, imageProdStatsLay_size, navigExtrResultLay_size, radiometricQualityLay_size,
    geometricQualityLay_size, timelinCompleLay_size]

end Msat.Layout
