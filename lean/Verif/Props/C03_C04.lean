import Verif.Lemmas.HritHeader

/-
C03 HRIT header parsing always ends in a result or a reported error (violated: see the witnesses;
    partial theorems).
C04 HRIT header records are all recovered.
-/
namespace Msat.Props
open Machine Time Spec Hrit HritSpec

/-! ## C04 -/

/-- C04.  For every primary header, every data field and every sequence of in-range header records
in which line quality records follow the image structure they describe, reading the encoded file
succeeds, leaves exactly the data field unread, and for each kind of record returns the field
values of the last record of that kind (none if there is none). -/
theorem C04_records_recovered (typecode bits : Nat) (rs : List Rec) (data : Bytes)
    (hty : typecode < 2 ^ 8) (hbits : bits < 2 ^ 64)
    (hlen : 16 + (rs.flatMap Rec.encode).length < 2 ^ 32)
    (hr : ∀ r ∈ rs, r.InRange) (hq : QualityConsistent rs) :
    ∃ h, readHeader .fresh (encodeHeader typecode bits rs ++ data) = .ok (h, data) ∧
      h.typecode = typecode ∧ h.dataFieldLength = bits ∧
      h.totalHeaderLength = (encodeHeader typecode bits rs).length ∧
      h.filesize = (encodeHeader typecode bits rs).length + bits / 8 ∧
      h.imageStructure.map (fun s => (s.bpp, s.columns, s.lines, s.compression))
        = lastOf (fun | .imageStructure a b c d => some (a, b, c, d) | _ => none) rs ∧
      h.imageStructure.map (fun s => (s.pixels, s.size))
        = lastOf (fun | .imageStructure bpp c l _ => some (c * l, (c * l * bpp + 7) / 8)
                      | _ => none) rs ∧
      h.imageNavigation.map (fun s => (s.cfac, s.lfac, s.coff, s.loff))
        = lastOf (fun | .navigation _ a b c d => some (a, b, c, d) | _ => none) rs ∧
      h.dataFunction = lastOf (fun | .dataFunction t => some t | _ => none) rs ∧
      h.annotation.map (·.text) = lastOf (fun | .annotation t => some t | _ => none) rs ∧
      h.timestamp.map (fun t => (t.day, t.msec))
        = lastOf (fun | .timestamp _ d m => some (d, m) | _ => none) rs ∧
      h.ancillary = lastOf (fun | .ancillary t => some t | _ => none) rs ∧
      h.key.map (fun k => (k.number, k.seed))
        = lastOf (fun | .key n s => some (n, s) | _ => none) rs ∧
      h.segmentId.map (fun s => (s.spacecraft, s.channel, s.sequence, s.plannedStart,
          s.plannedEnd, s.format))
        = lastOf (fun | .segmentId a b c d e f => some (a, b, c, d, e, f) | _ => none) rs ∧
      h.segmentQuality.map (·.map fun q => (q.line, q.acquisition.day, q.acquisition.msec,
          q.validity, q.radiometric, q.geometric))
        = lastOf (fun | .lineQuality qs => some (qs.map fun q => (q.line, q.day, q.msec,
            q.validity, q.radiometric, q.geometric)) | _ => none) rs := by
  have hl : (encodeHeader typecode bits rs).length = 16 + (rs.flatMap Rec.encode).length := by
    simp only [encodeHeader, List.length_append, encBE_length]
  let h0 : Header := { Header.fresh with
    typecode := typecode, totalHeaderLength := 16 + (rs.flatMap Rec.encode).length,
    dataFieldLength := bits, filesize := bits / 8 + (16 + (rs.flatMap Rec.encode).length) }
  have hproj : ∀ {β : Type} (proj : Header → Option β) (g : Rec → Option β),
      (∀ h r, proj (applyRec h r) = (g r).or (proj h)) → proj h0 = none →
      proj (rs.foldl applyRec h0) = lastOf g rs := by
    intro β proj g hs hn
    rw [proj_foldl proj g hs, hn, Option.or_none]
  obtain ⟨k1, k2, k3, k4⟩ := primary_foldl rs h0
  refine ⟨rs.foldl applyRec h0, ?_, ?_, ?_, ?_, ?_, ?_, ?_, ?_, ?_, ?_, ?_, ?_, ?_, ?_, ?_⟩
  · exact readHeader_encode .fresh typecode bits rs data hty hbits hlen hr hq
  · exact k1
  · exact k3
  · rw [k2, hl]
  · rw [k4, hl]; simp only [h0]; omega
  · refine hproj (fun h => h.imageStructure.map fun s => (s.bpp, s.columns, s.lines, s.compression))
      _ ?_ rfl
    intro h r; cases r <;> simp [applyRec, imageStructOf]
  · refine hproj (fun h => h.imageStructure.map fun s => (s.pixels, s.size)) _ ?_ rfl
    intro h r
    cases r with
    | imageStructure bpp c l comp =>
      simp only [applyRec, imageStructOf, Option.map_some, Option.some_or, Option.some.injEq,
        Prod.mk.injEq, true_and]
      generalize c * l * bpp = n
      split <;> omega
    | _ => simp [applyRec]
  · refine hproj (fun h => h.imageNavigation.map fun s => (s.cfac, s.lfac, s.coff, s.loff)) _ ?_ rfl
    intro h r; cases r <;> simp [applyRec]
  · refine hproj (fun h => h.dataFunction) _ ?_ rfl
    intro h r; cases r <;> simp [applyRec]
  · refine hproj (fun h => h.annotation.map (·.text)) _ ?_ rfl
    intro h r; cases r <;> simp [applyRec, annotationOf]
  · refine hproj (fun h => h.timestamp.map fun t => (t.day, t.msec)) _ ?_ rfl
    intro h r; cases r <;> simp [applyRec, cdsShortOf]
  · refine hproj (fun h => h.ancillary) _ ?_ rfl
    intro h r; cases r <;> simp [applyRec]
  · refine hproj (fun h => h.key.map fun k => (k.number, k.seed)) _ ?_ rfl
    intro h r; cases r <;> simp [applyRec]
  · refine hproj (fun h => h.segmentId.map fun s => (s.spacecraft, s.channel, s.sequence,
      s.plannedStart, s.plannedEnd, s.format)) _ ?_ rfl
    intro h r; cases r <;> simp [applyRec]
  · refine hproj (fun h => h.segmentQuality.map (·.map fun q => (q.line, q.acquisition.day,
      q.acquisition.msec, q.validity, q.radiometric, q.geometric))) _ ?_ rfl
    intro h r; cases r <;> simp [applyRec, lineQOf, cdsShortOf, Function.comp_def]

/-- A typical segment header: image structure, navigation, segment identification, line quality. -/
def sampleRecs : List Rec :=
  [.imageStructure 10 3712 2 0,
   .navigation (str "GEOS(+000.0)" ++ List.replicate 20 32) (-13642337) (-13642337) 1856 1856,
   .annotation (List.replicate 61 65),
   .timestamp 64 17775 500,
   .segmentId 321 4 3 1 8 2,
   .lineQuality [⟨1, 17775, 0, 1, 1, 1⟩, ⟨2, 17775, 600, 1, 1, 1⟩]]

example : ∃ h, readHeader .fresh (encodeHeader 0 80 sampleRecs ++ List.replicate 10 7)
    = .ok (h, List.replicate 10 7) ∧ h.segmentId.map (·.sequence) = some 3 := by
  obtain ⟨h, e, rest⟩ := C04_records_recovered 0 80 sampleRecs (List.replicate 10 7) (by decide)
    (by decide +kernel) (by decide +kernel)
    (by
      intro r hr
      simp only [sampleRecs, List.mem_cons, List.not_mem_nil, or_false] at hr
      rcases hr with rfl | rfl | rfl | rfl | rfl | rfl
      all_goals simp only [Rec.InRange, LineQ.InRange]
      all_goals decide +kernel)
    (by
      intro before qs after e
      simp only [sampleRecs] at e
      rcases before with _ | ⟨a, _ | ⟨b, _ | ⟨c, _ | ⟨d, _ | ⟨f, _ | ⟨g, l⟩⟩⟩⟩⟩⟩ <;>
        simp only [List.nil_append, List.cons_append, List.cons.injEq, reduceCtorEq, false_and,
          and_false] at e
      · obtain ⟨rfl, rfl, rfl, rfl, rfl, e, _⟩ := e
        injection e with e
        subst e; rfl
      · simp at e)
  refine ⟨h, e, ?_⟩
  have := rest.2.2.2.2.2.2.2.2.2.2.2.2.1
  have h2 := congrArg (Option.map fun t : Nat × Nat × Nat × Nat × Nat × Nat => t.2.2.1) this
  simpa [lastOf, sampleRecs, Option.map_map, Function.comp_def] using h2

/-- The annotation is split in its documented fields: `H-000-MSG1__-MSG1________-...`. -/
theorem C04_annotation_fields (a b c d e f g h : Bytes) (s₁ s₂ s₃ s₄ s₅ s₆ s₇ : UInt8)
    (ha : a.length = 1) (hb : b.length = 3) (hc : c.length = 6) (hd : d.length = 12)
    (he : e.length = 9) (hf : f.length = 9) (hg : g.length = 12) (hh : h.length = 2) (post : Bytes)
    (hnz : (0 : UInt8) ∉ a ++ s₁ :: b ++ s₂ :: c ++ s₃ :: d ++ s₄ :: e ++ s₅ :: f ++ s₆ :: g ++ s₇ :: h) :
    ∃ an, readAnnotation ((Rec.annotation
        (a ++ s₁ :: b ++ s₂ :: c ++ s₃ :: d ++ s₄ :: e ++ s₅ :: f ++ s₆ :: g ++ s₇ :: h)).encode ++ post)
        = .ok an ∧
      an.channelId = a ∧ an.version = b ∧ an.disseminating = c ∧ an.product1 = d ∧
      an.product2 = e ∧ an.product3 = f ∧ an.product4 = g ∧ an.flags = h := by
  have hl : (a ++ s₁ :: b ++ s₂ :: c ++ s₃ :: d ++ s₄ :: e ++ s₅ :: f ++ s₆ :: g ++ s₇ :: h).length = 61 := by
    simp only [List.length_append, List.length_cons]; omega
  generalize ht : a ++ s₁ :: b ++ s₂ :: c ++ s₃ :: d ++ s₄ :: e ++ s₅ :: f ++ s₆ :: g ++ s₇ :: h = t at *
  have hrec := readRecord_encode .fresh (.annotation t) post ⟨hl, hnz⟩ (by intro qs e; cases e)
  have hty := ty_pre (.annotation t) post
  have hck := checkLen_ok (.annotation t) post ⟨hl, hnz⟩ 64 (by simp [Rec.body, hl])
  simp only [readRecord, hty, hck, Rec.code, Outcome.ok_bind] at hrec
  cases hx : readAnnotation ((Rec.annotation t).encode ++ post) with
  | ok an =>
    rw [hx] at hrec
    simp only [Outcome.ok_bind, Outcome.pure_eq, Outcome.ok.injEq, Prod.mk.injEq] at hrec
    have h1 := congrArg Header.annotation hrec.1
    simp only [applyRec, Option.some.injEq] at h1
    subst h1
    refine ⟨_, rfl, ?_⟩
    simp only [annotationOf]
    have dr : ∀ (p q r : Bytes) (n m : Nat), t = p ++ (q ++ r) → p.length = n → q.length = m →
        (t.drop n).take m = q := by
      intro p q r n m e1 e2 e3
      subst e2 e3; rw [e1]; simp
    refine ⟨?_, ?_, ?_, ?_, ?_, ?_, ?_, ?_⟩
    · have := dr [] a (s₁ :: b ++ s₂ :: c ++ s₃ :: d ++ s₄ :: e ++ s₅ :: f ++ s₆ :: g ++ s₇ :: h) 0 1
        (by rw [← ht]; simp) rfl ha
      simpa using this
    · exact dr (a ++ [s₁]) b (s₂ :: c ++ s₃ :: d ++ s₄ :: e ++ s₅ :: f ++ s₆ :: g ++ s₇ :: h) _ _
        (by rw [← ht]; simp) (by simp; omega) hb
    · exact dr (a ++ s₁ :: b ++ [s₂]) c (s₃ :: d ++ s₄ :: e ++ s₅ :: f ++ s₆ :: g ++ s₇ :: h) _ _
        (by rw [← ht]; simp) (by simp; omega) hc
    · exact dr (a ++ s₁ :: b ++ s₂ :: c ++ [s₃]) d (s₄ :: e ++ s₅ :: f ++ s₆ :: g ++ s₇ :: h) _ _
        (by rw [← ht]; simp) (by simp; omega) hd
    · exact dr (a ++ s₁ :: b ++ s₂ :: c ++ s₃ :: d ++ [s₄]) e (s₅ :: f ++ s₆ :: g ++ s₇ :: h) _ _
        (by rw [← ht]; simp) (by simp; omega) he
    · exact dr (a ++ s₁ :: b ++ s₂ :: c ++ s₃ :: d ++ s₄ :: e ++ [s₅]) f (s₆ :: g ++ s₇ :: h) _ _
        (by rw [← ht]; simp) (by simp; omega) hf
    · exact dr (a ++ s₁ :: b ++ s₂ :: c ++ s₃ :: d ++ s₄ :: e ++ s₅ :: f ++ [s₆]) g (s₇ :: h) _ _
        (by rw [← ht]; simp) (by simp; omega) hg
    · have := dr (a ++ s₁ :: b ++ s₂ :: c ++ s₃ :: d ++ s₄ :: e ++ s₅ :: f ++ s₆ :: g ++ [s₇]) h [] 59 2
        (by rw [← ht]; simp) (by simp; omega) hh
      exact this
  | throws m => rw [hx] at hrec; simp at hrec
  | ub => rw [hx] at hrec; simp at hrec
  | terminate => rw [hx] at hrec; simp at hrec
  | diverges => rw [hx] at hrec; simp at hrec

/-- The geostationary projection name `GEOS(lon)` gives name `GEOS` and the text of the longitude. -/
theorem C04_geos_projection (lon rest : Bytes) (h0 : (0 : UInt8) ∉ lon) (h1 : (41 : UInt8) ∉ lon)
    (hr : (0 : UInt8) ∉ rest) :
    readProjection (str "GEOS(" ++ lon ++ (41 : UInt8) :: rest) = .ok (str "GEOS", [lon]) := by
  have es : str "GEOS(" = [71, 69, 79, 83, 40] := by decide
  have eg : str "GEOS" = [71, 69, 79, 83] := by decide
  have e : str "GEOS(" ++ lon ++ (41 : UInt8) :: rest
      = 71 :: 69 :: 79 :: 83 :: 40 :: (lon ++ 41 :: rest) := by rw [es]; simp
  rw [readProjection_ok]
  · rw [projectionOf, e, if_pos (by simp), eg]
    simp only [List.take_succ_cons, List.take_zero, List.drop_succ_cons, List.drop_zero,
      Outcome.ok.injEq, Prod.mk.injEq, List.cons.injEq, and_true, true_and]
    clear e h0
    induction lon with
    | nil => simp
    | cons x xs ih =>
      have hx : x ≠ 41 := by rintro rfl; simp at h1
      rw [List.cons_append, List.takeWhile_cons, if_pos (by simpa using hx),
        ih (fun h => h1 (List.mem_cons_of_mem _ h))]
  · rw [e]
    intro hh
    simp only [List.mem_cons, List.mem_append] at hh
    rcases hh with hh | hh | hh | hh | hh | hh | hh | hh
    · revert hh; decide
    · revert hh; decide
    · revert hh; decide
    · revert hh; decide
    · revert hh; decide
    · exact h0 hh
    · revert hh; decide
    · exact hr hh
  · intro _; rw [e]; simp
  · rw [e]; simp

/-- The three groups of key numbers partition all key numbers. -/
theorem C04_key_groups (k : Key) :
    (k.group1 = true ∧ k.group2 = false ∧ k.reserved = false) ∨
    (k.group1 = false ∧ k.group2 = true ∧ k.reserved = false) ∨
    (k.group1 = false ∧ k.group2 = false ∧ k.reserved = true) := by
  simp only [Key.group1, Key.group2, Key.reserved, Bool.and_eq_true, decide_eq_true_eq,
    Bool.and_eq_false_iff, decide_eq_false_iff_not, Bool.or_eq_true, Bool.or_eq_false_iff]
  omega

/-! ## C03 -/

/-- An empty file kills the process instead of raising an exception. -/
theorem C03_violated_terminate : readHeader .fresh [] = .terminate := by decide

/-- So does a record of unknown type. -/
theorem C03_violated_unknown_record :
    readHeader .fresh (encBE 1 0 ++ encBE 2 16 ++ encBE 1 0 ++ encBE 4 17 ++ encBE 8 0 ++ [99])
      = .terminate := by decide +kernel

/-- A record announced beyond the end of the header is read out of bounds. -/
theorem C03_violated_out_of_bounds :
    readHeader .fresh (encBE 1 0 ++ encBE 2 16 ++ encBE 1 0 ++ encBE 4 20 ++ encBE 8 0 ++ [3, 0, 200, 65])
      = .ub := by decide +kernel

/-- A line quality record without image structure dereferences a null pointer. -/
theorem C03_violated_null_dereference :
    readHeader .fresh (encBE 1 0 ++ encBE 2 16 ++ encBE 1 0 ++ encBE 4 19 ++ encBE 8 0 ++ [129, 0, 3])
      = .ub := by decide +kernel

/-- A line quality record of announced length zero is read for ever. -/
theorem C03_violated_nontermination :
    readHeader .fresh (encBE 1 0 ++ encBE 2 16 ++ encBE 1 0 ++ encBE 4 28 ++ encBE 8 0 ++
      ((Rec.imageStructure 10 4 0 0).encode ++ [129, 0, 0])) = .diverges := by decide +kernel

/-- Polar projections always dereference a null pointer, whatever the name's parameters. -/
theorem C03_violated_polar (rest : Bytes) :
    readProjection (str "POLAR(" ++ rest) = .ub := by
  have es : str "POLAR(" = [80, 79, 76, 65, 82, 40] := by decide
  rw [es]
  unfold readProjection
  rw [if_neg (by simp), if_pos (by simp)]
  split <;> rfl

theorem cdsShort_ne_diverges (buf : Bytes) (off : Nat) : cdsShort buf off ≠ .diverges := by
  unfold cdsShort ui2 ui4
  split <;> simp
  split <;> simp

theorem bind_ne_diverges {α β : Type} {o : Outcome α} {f : α → Outcome β} (h : o ≠ .diverges)
    (hf : ∀ a, o = .ok a → f a ≠ .diverges) : (o >>= f) ≠ .diverges := by
  cases o with
  | ok a => exact hf a rfl
  | throws m => simp
  | ub => simp
  | terminate => simp
  | diverges => exact absurd rfl h

theorem ui1_nd (b o) : ui1 b o ≠ .diverges := by unfold ui1; split <;> simp
theorem ui2_nd (b o) : ui2 b o ≠ .diverges := by unfold ui2; split <;> simp
theorem ui8_nd (b o) : ui8 b o ≠ .diverges := by unfold ui8; split <;> simp
theorem ui4_nd (b o) : ui4 b o ≠ .diverges := by unfold ui4; split <;> simp
theorem i4_nd (b o) : i4 b o ≠ .diverges := by unfold i4; split <;> simp
theorem slice_nd (b o n) : slice b o n ≠ .diverges := by unfold slice; split <;> simp
theorem substr_nd (b o n) : substr b o n ≠ .diverges := by unfold substr; split <;> simp
theorem checkLen_nd (b o) : checkLen b o ≠ .diverges := by
  unfold checkLen
  refine bind_ne_diverges (ui2_nd _ _) (fun a _ => ?_)
  split <;> simp

theorem readLineQualities_nd (b : Bytes) (n : Nat) : ∀ off, readLineQualities b off n ≠ .diverges := by
  induction n with
  | zero => intro off; simp [readLineQualities]
  | succ n ih =>
    intro off
    unfold readLineQualities readLineQuality
    refine bind_ne_diverges ?_ (fun a _ => bind_ne_diverges (ih _) (fun _ _ => by simp))
    refine bind_ne_diverges (i4_nd _ _) (fun _ _ => bind_ne_diverges (cdsShort_ne_diverges _ _)
      (fun _ _ => bind_ne_diverges (ui1_nd _ _) (fun _ _ => bind_ne_diverges (ui1_nd _ _)
      (fun _ _ => bind_ne_diverges (ui1_nd _ _) (fun _ _ => by simp)))))

theorem readRecord_nd (h : Header) (r : Bytes) : readRecord h r ≠ .diverges := by
  unfold readRecord
  refine bind_ne_diverges (ui1_nd _ _) (fun ty _ => ?_)
  split
  · refine bind_ne_diverges (checkLen_nd _ _) (fun _ _ => bind_ne_diverges ?_ (fun _ _ => by simp))
    unfold readImageStruct
    refine bind_ne_diverges (ui1_nd _ _) (fun _ _ => bind_ne_diverges (ui2_nd _ _) (fun _ _ =>
      bind_ne_diverges (ui2_nd _ _) (fun _ _ => bind_ne_diverges (ui1_nd _ _) (fun _ _ => ?_))))
    split <;> simp
  · refine bind_ne_diverges (checkLen_nd _ _) (fun _ _ => bind_ne_diverges ?_ (fun _ _ => by simp))
    unfold readImageNavig
    refine bind_ne_diverges (slice_nd _ _ _) (fun _ _ => bind_ne_diverges (i4_nd _ _) (fun _ _ =>
      bind_ne_diverges (i4_nd _ _) (fun _ _ => bind_ne_diverges (i4_nd _ _) (fun _ _ =>
      bind_ne_diverges (i4_nd _ _) (fun _ _ => bind_ne_diverges ?_ (fun _ _ => by simp))))))
    unfold readProjection
    split
    · split <;> simp
    · split
      · split <;> simp
      · split
        · simp
        · split <;> simp
  · refine bind_ne_diverges (ui2_nd _ _) (fun _ _ => bind_ne_diverges ?_ (fun _ _ => by simp))
    unfold readDataFunc
    refine bind_ne_diverges (ui2_nd _ _) (fun _ _ => ?_)
    split
    · simp
    · split
      · simp
      · exact bind_ne_diverges (slice_nd _ _ _) (fun _ _ => by simp)
  · refine bind_ne_diverges (checkLen_nd _ _) (fun _ _ => bind_ne_diverges ?_ (fun _ _ => by simp))
    unfold readAnnotation
    refine bind_ne_diverges (slice_nd _ _ _) (fun _ _ => ?_)
    iterate 8 refine bind_ne_diverges (substr_nd _ _ _) (fun _ _ => ?_)
    simp
  · refine bind_ne_diverges (checkLen_nd _ _) (fun _ _ => bind_ne_diverges ?_ (fun _ _ => by simp))
    exact cdsShort_ne_diverges _ _
  · refine bind_ne_diverges (ui2_nd _ _) (fun _ _ => bind_ne_diverges ?_ (fun _ _ => by simp))
    unfold readAncillary
    refine bind_ne_diverges (ui2_nd _ _) (fun _ _ => ?_)
    split
    · simp
    · split
      · simp
      · exact slice_nd _ _ _
  · refine bind_ne_diverges (checkLen_nd _ _) (fun _ _ => bind_ne_diverges ?_ (fun _ _ => by simp))
    unfold readKey
    exact bind_ne_diverges (ui1_nd _ _) (fun _ _ => bind_ne_diverges (ui8_nd _ _) (fun _ _ => by simp))
  · refine bind_ne_diverges (checkLen_nd _ _) (fun _ _ => bind_ne_diverges ?_ (fun _ _ => by simp))
    unfold readSegmentId
    refine bind_ne_diverges (ui2_nd _ _) (fun _ _ => bind_ne_diverges (ui1_nd _ _) (fun _ _ =>
      bind_ne_diverges (ui2_nd _ _) (fun _ _ => bind_ne_diverges (ui2_nd _ _) (fun _ _ =>
      bind_ne_diverges (ui2_nd _ _) (fun _ _ => bind_ne_diverges (ui1_nd _ _) (fun _ _ => by simp))))))
  · split
    · simp
    · exact bind_ne_diverges (readLineQualities_nd _ _ _) (fun _ _ =>
        bind_ne_diverges (ui2_nd _ _) (fun _ _ => by simp))
  · simp

/-- The loop fails to terminate only on a header holding a line quality record (type 129) whose
announced length is zero. -/
theorem readRecords_diverges (r : Bytes) (h : Header) (hd : readRecords h r = .diverges) :
    ∃ pre post, r = pre ++ [129, 0, 0] ++ post := by
  fun_induction readRecords h r with
  | case1 h => cases hd
  | case2 h b bs h' hrec =>
    -- the advance is 0
    have hall : ∀ ty, ui1 (b :: bs) 0 = .ok ty → ty = 129 ∧ ui2 (b :: bs) 1 = .ok 0 := by
      intro ty hty
      unfold readRecord at hrec
      rw [hty, Outcome.ok_bind] at hrec
      have hb : ∀ {α : Type} {o : Outcome α} {f : α → Outcome (Header × Nat)} {x},
          (o >>= f) = .ok x → ∃ a, o = .ok a ∧ f a = .ok x := by
        intro α o f x hx
        cases o <;> simp_all
      split at hrec
      · obtain ⟨_, _, hrec⟩ := hb hrec
        obtain ⟨_, _, hrec⟩ := hb hrec
        simp at hrec
      · obtain ⟨_, _, hrec⟩ := hb hrec
        obtain ⟨_, _, hrec⟩ := hb hrec
        simp at hrec
      · obtain ⟨n, hn, hrec⟩ := hb hrec
        obtain ⟨x, hx, hrec⟩ := hb hrec
        simp only [Outcome.pure_eq, Outcome.ok.injEq, Prod.mk.injEq] at hrec
        obtain ⟨_, rfl⟩ := hrec
        simp [readDataFunc, hn] at hx
      · obtain ⟨_, _, hrec⟩ := hb hrec
        obtain ⟨_, _, hrec⟩ := hb hrec
        simp at hrec
      · obtain ⟨_, _, hrec⟩ := hb hrec
        obtain ⟨_, _, hrec⟩ := hb hrec
        simp at hrec
      · obtain ⟨n, hn, hrec⟩ := hb hrec
        obtain ⟨x, hx, hrec⟩ := hb hrec
        simp only [Outcome.pure_eq, Outcome.ok.injEq, Prod.mk.injEq] at hrec
        obtain ⟨_, rfl⟩ := hrec
        simp [readAncillary, hn] at hx
      · obtain ⟨_, _, hrec⟩ := hb hrec
        obtain ⟨_, _, hrec⟩ := hb hrec
        simp at hrec
      · obtain ⟨_, _, hrec⟩ := hb hrec
        obtain ⟨_, _, hrec⟩ := hb hrec
        simp at hrec
      · refine ⟨rfl, ?_⟩
        split at hrec
        · simp at hrec
        · obtain ⟨x, hx, hrec⟩ := hb hrec
          obtain ⟨n, hn, hrec⟩ := hb hrec
          simp only [Outcome.pure_eq, Outcome.ok.injEq, Prod.mk.injEq] at hrec
          rw [hn, hrec.2]
      · simp at hrec
    obtain ⟨h1, h2⟩ := hall b.toNat (by simp [ui1, getUI1, load])
    have hb : b = 129 := by apply UInt8.toNat_inj.1; rw [h1]; rfl
    subst hb
    rcases bs with _ | ⟨c, _ | ⟨d, l⟩⟩
    · simp [ui2] at h2
    · simp [ui2] at h2
    · simp only [ui2, List.drop_succ_cons, List.drop_zero, Outcome.ok.injEq] at h2
      rw [← chk_little, getUI2_eq] at h2
      simp only [beVal, List.length] at h2
      have hc : c = 0 := by apply UInt8.toNat_inj.1; simp; omega
      have hd' : d = 0 := by apply UInt8.toNat_inj.1; simp; omega
      subst hc hd'
      exact ⟨[], l, by simp⟩
  | case3 h b bs h' n hrec hn0 hn ih =>
    obtain ⟨pre, post, e⟩ := ih hd
    refine ⟨(b :: bs).take n ++ pre, post, ?_⟩
    have := List.take_append_drop n (b :: bs)
    rw [e] at this
    refine this.symm.trans ?_
    simp only [List.append_assoc]
  | case4 => cases hd
  | case5 => cases hd
  | case6 => cases hd
  | case7 => cases hd
  | case8 h b bs hrec => exact absurd hrec (readRecord_nd _ _)

/-- C03, partial.  Reading terminates on every file that does not contain the bytes of a line
quality record of length zero. Missing for the full property: out-of-bounds reads and
`std::terminate`, which the code does reach (see the `C03_violated_*` theorems). -/
theorem C03_terminates_partial (h0 : Header) (file : Bytes)
    (hno : ¬ ∃ pre post, file = pre ++ [129, 0, 0] ++ post) :
    readHeader h0 file ≠ .diverges := by
  intro hd
  unfold readHeader at hd
  split at hd
  · cases hd
  · revert hd
    refine bind_ne_diverges (ui1_nd _ _) (fun _ _ => ?_)
    split
    · simp
    refine bind_ne_diverges (ui2_nd _ _) (fun _ _ => ?_)
    split
    · simp
    refine bind_ne_diverges (ui1_nd _ _) (fun _ _ => bind_ne_diverges (ui4_nd _ _) (fun thl _ =>
      bind_ne_diverges (ui8_nd _ _) (fun _ _ => ?_)))
    simp only
    split
    · simp
    refine bind_ne_diverges ?_ (fun _ _ => by simp)
    intro hd
    obtain ⟨pre, post, e⟩ := readRecords_diverges _ _ hd
    apply hno
    refine ⟨file.take 16 ++ pre, post ++ (file.drop 16).drop (u32sub thl 16), ?_⟩
    have e1 := List.take_append_drop 16 file
    have e2 := List.take_append_drop (u32sub thl 16) (file.drop 16)
    rw [e] at e2
    rw [← e2] at e1
    refine e1.symm.trans ?_
    simp only [List.append_assoc]

example : readHeader .fresh (encodeHeader 0 0 [.imageStructure 10 3712 464 0]) ≠ .diverges := by
  apply C03_terminates_partial
  rintro ⟨pre, post, e⟩
  have h : (129 : UInt8) ∈ encodeHeader 0 0 [.imageStructure 10 3712 464 0] := by rw [e]; simp
  revert h; decide +kernel

/-- C03, partial.  Every well-formed header is read to a result (no exception, no undefined
behaviour, no abort). -/
theorem C03_wellformed_partial (typecode bits : Nat) (rs : List Rec) (data : Bytes)
    (hty : typecode < 2 ^ 8) (hbits : bits < 2 ^ 64)
    (hlen : 16 + (rs.flatMap Rec.encode).length < 2 ^ 32)
    (hr : ∀ r ∈ rs, r.InRange) (hq : QualityConsistent rs) :
    ∃ h, readHeader .fresh (encodeHeader typecode bits rs ++ data) = .ok (h, data) := by
  have H := C04_records_recovered typecode bits rs data hty hbits hlen hr hq
  exact H.imp fun h e => e.1

/-! ### Only chains of well-framed records are accepted -/

theorem bind_eq_ok {α β : Type} {o : Outcome α} {f : α → Outcome β} {x : β} (hx : (o >>= f) = .ok x) :
    ∃ a, o = .ok a ∧ f a = .ok x := by
  cases o <;> simp_all

theorem checkLen_eq_ok {r : Bytes} {n : Nat} {u : Unit} (h : checkLen r n = .ok u) : ui2 r 1 = .ok n := by
  unfold checkLen at h
  obtain ⟨l, hl, h⟩ := bind_eq_ok h
  split at h
  · cases h
  · rename_i hh
    rw [hl]
    simp only [ne_eq, Decidable.not_not] at hh
    rw [hh]

theorem readRecord_allowed {h h' : Header} {r : Bytes} {n ty : Nat} (hty : ui1 r 0 = .ok ty)
    (hr : readRecord h r = .ok (h', n)) (hn0 : n ≠ 0) : ui2 r 1 = .ok n ∧ LengthAllowed ty n := by
  unfold readRecord at hr
  rw [hty, Outcome.ok_bind] at hr
  unfold LengthAllowed
  split at hr
  · obtain ⟨_, h1, hr⟩ := bind_eq_ok hr
    obtain ⟨_, _, hr⟩ := bind_eq_ok hr
    simp only [Outcome.pure_eq, Outcome.ok.injEq, Prod.mk.injEq] at hr
    obtain ⟨_, rfl⟩ := hr
    exact ⟨checkLen_eq_ok h1, by simp⟩
  · obtain ⟨_, h1, hr⟩ := bind_eq_ok hr
    obtain ⟨_, _, hr⟩ := bind_eq_ok hr
    simp only [Outcome.pure_eq, Outcome.ok.injEq, Prod.mk.injEq] at hr
    obtain ⟨_, rfl⟩ := hr
    exact ⟨checkLen_eq_ok h1, by simp⟩
  · obtain ⟨m, h1, hr⟩ := bind_eq_ok hr
    obtain ⟨_, h2, hr⟩ := bind_eq_ok hr
    simp only [Outcome.pure_eq, Outcome.ok.injEq, Prod.mk.injEq] at hr
    obtain ⟨_, rfl⟩ := hr
    refine ⟨h1, ?_⟩
    unfold readDataFunc at h2
    rw [h1, Outcome.ok_bind] at h2
    split at h2
    · cases h2
    · split at h2
      · cases h2
      · omega
  · obtain ⟨_, h1, hr⟩ := bind_eq_ok hr
    obtain ⟨_, _, hr⟩ := bind_eq_ok hr
    simp only [Outcome.pure_eq, Outcome.ok.injEq, Prod.mk.injEq] at hr
    obtain ⟨_, rfl⟩ := hr
    exact ⟨checkLen_eq_ok h1, by simp⟩
  · obtain ⟨_, h1, hr⟩ := bind_eq_ok hr
    obtain ⟨_, _, hr⟩ := bind_eq_ok hr
    simp only [Outcome.pure_eq, Outcome.ok.injEq, Prod.mk.injEq] at hr
    obtain ⟨_, rfl⟩ := hr
    exact ⟨checkLen_eq_ok h1, by simp⟩
  · obtain ⟨m, h1, hr⟩ := bind_eq_ok hr
    obtain ⟨_, h2, hr⟩ := bind_eq_ok hr
    simp only [Outcome.pure_eq, Outcome.ok.injEq, Prod.mk.injEq] at hr
    obtain ⟨_, rfl⟩ := hr
    refine ⟨h1, ?_⟩
    unfold readAncillary at h2
    rw [h1, Outcome.ok_bind] at h2
    split at h2
    · cases h2
    · split at h2
      · cases h2
      · omega
  · obtain ⟨_, h1, hr⟩ := bind_eq_ok hr
    obtain ⟨_, _, hr⟩ := bind_eq_ok hr
    simp only [Outcome.pure_eq, Outcome.ok.injEq, Prod.mk.injEq] at hr
    obtain ⟨_, rfl⟩ := hr
    exact ⟨checkLen_eq_ok h1, by simp⟩
  · obtain ⟨_, h1, hr⟩ := bind_eq_ok hr
    obtain ⟨_, _, hr⟩ := bind_eq_ok hr
    simp only [Outcome.pure_eq, Outcome.ok.injEq, Prod.mk.injEq] at hr
    obtain ⟨_, rfl⟩ := hr
    exact ⟨checkLen_eq_ok h1, by simp⟩
  · split at hr
    · cases hr
    · obtain ⟨_, _, hr⟩ := bind_eq_ok hr
      obtain ⟨m, h1, hr⟩ := bind_eq_ok hr
      simp only [Outcome.pure_eq, Outcome.ok.injEq, Prod.mk.injEq] at hr
      obtain ⟨_, rfl⟩ := hr
      exact ⟨h1, by omega⟩
  · cases hr

theorem readRecords_framed (r : Bytes) (h h' : Header) (hr : readRecords h r = .ok h') : Framed r := by
  fun_induction readRecords h r with
  | case1 h => exact .nil
  | case2 => cases hr
  | case3 h b bs h1 n hrec hn0 hn ih =>
    have hf := ih hr
    obtain ⟨h2, h3⟩ := readRecord_allowed (ty := b.toNat) (by simp [ui1, getUI1, load]) hrec hn0
    rcases bs with _ | ⟨c, _ | ⟨d, l⟩⟩
    · simp [ui2] at h2
    · simp [ui2] at h2
    · simp only [ui2, List.drop_succ_cons, List.drop_zero, Outcome.ok.injEq] at h2
      rw [← chk_little, getUI2_eq] at h2
      have h2' : beVal [c, d] = n := by simpa [beVal] using h2
      subst h2'
      exact .record b c d l h3 hn hf
  | case4 => cases hr
  | case5 => cases hr
  | case6 => cases hr
  | case7 => cases hr
  | case8 => cases hr

theorem sixteen {p : Bytes} (hp : p.length = 16) : ∃ a0 a1 a2 a3 a4 a5 a6 a7 a8 a9 a10 a11 a12 a13 a14 a15,
    p = [a0, a1, a2, a3, a4, a5, a6, a7, a8, a9, a10, a11, a12, a13, a14, a15] := by
  match p, hp with
  | [a0, a1, a2, a3, a4, a5, a6, a7, a8, a9, a10, a11, a12, a13, a14, a15], _ =>
    exact ⟨_, _, _, _, _, _, _, _, _, _, _, _, _, _, _, _, rfl⟩

/-- C03, partial.  Whatever the file, a header is only accepted when the file begins with the 16 byte
primary header, followed by a chain of records of known types and allowed lengths that fills exactly the
announced total header length (counted modulo 2^32); the rest of the file is the data. -/
theorem C03_only_framed_accepted_partial (h0 h : Header) (file data : Bytes)
    (hok : readHeader h0 file = .ok (h, data)) :
    ∃ primary recs, file = primary ++ recs ++ data ∧ primary.length = 16 ∧ Framed recs ∧
      beVal (primary.take 1) = 0 ∧ beVal ((primary.drop 1).take 2) = 16 ∧
      beVal ((primary.drop 4).take 4) % 2 ^ 32 = (16 + recs.length) % 2 ^ 32 := by
  unfold readHeader at hok
  split at hok
  · cases hok
  rename_i h16
  obtain ⟨b0, e0, hok⟩ := bind_eq_ok hok
  split at hok
  · cases hok
  rename_i hb0
  obtain ⟨l, e1, hok⟩ := bind_eq_ok hok
  split at hok
  · cases hok
  rename_i hl
  obtain ⟨ty, e3, hok⟩ := bind_eq_ok hok
  obtain ⟨thl, e4, hok⟩ := bind_eq_ok hok
  obtain ⟨dfl, e8, hok⟩ := bind_eq_ok hok
  simp only at hok
  split at hok
  · cases hok
  rename_i hsz
  obtain ⟨h', er, hok⟩ := bind_eq_ok hok
  simp only [Outcome.pure_eq, Outcome.ok.injEq, Prod.mk.injEq] at hok
  obtain ⟨_, hd⟩ := hok
  obtain ⟨p, rest, rfl, hp⟩ : ∃ p rest, file = p ++ rest ∧ p.length = 16 :=
    ⟨file.take 16, file.drop 16, (List.take_append_drop _ _).symm, by rw [List.length_take]; omega⟩
  have hdrop : (p ++ rest).drop 16 = rest := by rw [← hp]; simp
  rw [hdrop] at hsz er hd
  have hk : thl % 2 ^ 32 = (16 + u32sub thl 16) % 2 ^ 32 := by unfold u32sub; omega
  generalize u32sub thl 16 = k at hsz er hd hk
  clear hdrop h16
  obtain ⟨a0, a1, a2, a3, a4, a5, a6, a7, a8, a9, a10, a11, a12, a13, a14, a15, rfl⟩ := sixteen hp
  refine ⟨[a0, a1, a2, a3, a4, a5, a6, a7, a8, a9, a10, a11, a12, a13, a14, a15],
    rest.take k, ?_, rfl, readRecords_framed _ _ _ er, ?_, ?_, ?_⟩
  · rw [← hd, List.append_assoc, List.take_append_drop]
  · simp only [ne_eq, Decidable.not_not] at hb0
    simp [ui1, getUI1, load, hb0] at e0
    simp [beVal, e0]
  · simp only [ne_eq, Decidable.not_not] at hl
    simp only [ui2, List.cons_append, List.drop_succ_cons, List.drop_zero, Outcome.ok.injEq] at e1
    rw [← chk_little, getUI2_eq] at e1
    rw [hl] at e1
    simpa [beVal] using e1
  · have e4' : beVal [a4, a5, a6, a7] = thl := by
      simp only [ui4, List.cons_append, List.drop_succ_cons, List.drop_zero, Outcome.ok.injEq] at e4
      rw [← chk_little, getUI4_eq] at e4
      simpa [beVal] using e4
    have e5 : (rest.take k).length = k := by
      rw [List.length_take]; omega
    rw [e5]
    show beVal [a4, a5, a6, a7] % 2 ^ 32 = _
    rw [e4']
    exact hk

/-- C03, partial, the other side: a record of a fixed-size type that announces any other length is never
accepted. -/
theorem C03_wrong_length_refused_partial (h0 h : Header) (primary body data : Bytes) (code hi lo : UInt8)
    (hp : primary.length = 16)
    (hbad : ¬ LengthAllowed code.toNat (beVal [hi, lo])) :
    readHeader h0 (primary ++ (code :: hi :: lo :: body) ++ data) ≠ .ok (h, data) := by
  intro hok
  obtain ⟨p, recs, e, hp', hf, _⟩ := C03_only_framed_accepted_partial _ _ _ _ hok
  have e' := List.append_cancel_right e
  have ep := List.append_inj e' (by omega)
  rw [← ep.2] at hf
  cases hf with
  | record _ _ _ _ h1 _ _ => exact hbad h1

example : readHeader .fresh ((encBE 1 0 ++ encBE 2 16 ++ encBE 1 0 ++ encBE 4 26 ++ encBE 8 0) ++
    (1 :: 0 :: 10 :: [8, 0, 1, 0, 1, 0, 0]) ++ []) ≠ .ok (.fresh, []) :=
  C03_wrong_length_refused_partial _ _ _ _ _ _ _ _ rfl (by unfold LengthAllowed; decide)

example : Framed ((Rec.imageStructure 10 3712 464 0).encode ++ (Rec.timestamp 64 100 5).encode) :=
  .record 1 0 9 _ (by unfold LengthAllowed; decide) (by decide)
    (.record 5 0 10 _ (by unfold LengthAllowed; decide) (by decide) .nil)

end Msat.Props
