import Verif.Spec.OmtpIds
import Verif.Lemmas.ByteSex

namespace Msat.Ids
open IdsSpec

/-! ### Three properties of computations reading a stream, each preserved by sequencing -/

/-- Reads exactly `b` from the start of a good stream, giving `a`. -/
def Parses {α : Type} (m : Rd α) (b : Bytes) (a : α) : Prop := ∀ t, m ⟨b ++ t, true⟩ = .ok (a, ⟨t, true⟩)

/-- A run that leaves the stream good does the same when there is more to read. -/
def Ext {α : Type} (m : Rd α) : Prop := ∀ s t a s', m s = .ok (a, s') → s'.good = true →
  s.good = true ∧ m ⟨s.rest ++ t, true⟩ = .ok (a, ⟨s'.rest ++ t, true⟩)

/-- Never anything but a value or an exception. -/
def Safe {α : Type} (m : Rd α) : Prop := ∀ s, (m s).Handled

theorem bind_apply {α β : Type} (m : Rd α) (f : α → Rd β) (s : IStream) :
    (m >>= f) s = (m s) >>= fun r => f r.1 r.2 := rfl

theorem pure_apply {α : Type} (a : α) (s : IStream) : (pure a : Rd α) s = .ok (a, s) := rfl

theorem Parses.bind {α β : Type} {m : Rd α} {f : α → Rd β} {b b' : Bytes} {a : α} {a' : β}
    (h : Parses m b a) (h' : Parses (f a) b' a') : Parses (m >>= f) (b ++ b') a' := by
  intro t
  rw [bind_apply, List.append_assoc, h]
  exact h' t

theorem Parses.pure {α : Type} (a : α) : Parses (pure a) [] a := fun t => by rw [pure_apply, List.nil_append]

theorem Parses.check {α : Type} {msg : String} {f : Unit → Rd α} {b : Bytes} {a : α} (h : Parses (f ()) b a) :
    Parses (checkGood msg >>= f) b a := by
  intro t
  rw [bind_apply]
  exact h t

theorem Ext.bind {α β : Type} {m : Rd α} {f : α → Rd β} (h : Ext m) (h' : ∀ a, Ext (f a)) : Ext (m >>= f) := by
  intro s t a s' e hg
  rw [bind_apply] at e
  cases hm : m s with
  | ok r =>
    obtain ⟨a1, s1⟩ := r
    rw [hm] at e
    simp only [Outcome.ok_bind] at e
    obtain ⟨g1, e1⟩ := h' a1 s1 t a s' e hg
    obtain ⟨g2, e2⟩ := h s t a1 s1 hm g1
    refine ⟨g2, ?_⟩
    rw [bind_apply, e2]
    exact e1
  | throws _ => rw [hm] at e; cases e
  | ub => rw [hm] at e; cases e
  | terminate => rw [hm] at e; cases e
  | diverges => rw [hm] at e; cases e

theorem Ext.pure {α : Type} (a : α) : Ext (pure a : Rd α) := by
  intro s t b s' e hg
  rw [pure_apply] at e
  cases e
  exact ⟨hg, rfl⟩

theorem Safe.bind {α β : Type} {m : Rd α} {f : α → Rd β} (h : Safe m) (h' : ∀ a, Safe (f a)) : Safe (m >>= f) := by
  intro s
  rw [bind_apply]
  have := h s
  cases hm : m s with
  | ok r => exact h' r.1 r.2
  | throws _ => trivial
  | ub => rw [hm] at this; exact this
  | terminate => rw [hm] at this; exact this
  | diverges => rw [hm] at this; exact this

theorem Safe.pure {α : Type} (a : α) : Safe (pure a : Rd α) := fun _ => trivial

/-! ### The primitives -/

theorem ext_get : Ext get := by
  intro s t a s' e hg
  obtain ⟨r, g⟩ := s
  unfold get at e
  cases g with
  | false => cases e; simp at hg
  | true =>
    cases r with
    | nil => cases e; simp at hg
    | cons b bs => cases e; exact ⟨rfl, rfl⟩

theorem ext_readInto (old : Bytes) : Ext (readInto old) := by
  intro s t a s' e hg
  obtain ⟨r, g⟩ := s
  unfold readInto at e ⊢
  cases g with
  | false => cases e; simp at hg
  | true =>
    simp only [if_true] at e ⊢
    by_cases h : old.length ≤ r.length
    · rw [if_pos h] at e
      cases e
      refine ⟨trivial, ?_⟩
      rw [if_pos (by simp; omega), List.take_append_of_le_length h, List.drop_append_of_le_length h]
    · rw [if_neg h] at e
      cases e
      simp at hg

theorem ext_setFail : Ext setFail := by
  intro s t a s' e hg
  unfold setFail at e
  cases e
  simp at hg

theorem ext_checkGood (msg : String) : Ext (checkGood msg) := by
  intro s t a s' e hg
  unfold checkGood at e ⊢
  by_cases h : s.good = true
  · rw [if_pos h] at e
    cases e
    exact ⟨h, rfl⟩
  · rw [if_neg h] at e; cases e

theorem ext_skip (n : Nat) : Ext (skip n) := by
  induction n with
  | zero => exact Ext.pure ()
  | succ n ih => exact ext_get.bind (fun _ => ih)

theorem ext_read2 : Ext read2 := ext_get.bind fun _ => ext_get.bind fun _ => Ext.pure _

theorem ext_discard (o : Int) : Ext (discard o) := by
  unfold discard
  by_cases h : o < 0
  · simp only [if_pos h]
    exact ext_setFail.bind fun _ => ext_skip _
  · simp only [if_neg h]
    exact (Ext.pure _).bind fun _ => ext_skip _

theorem safe_get : Safe get := by
  intro s
  unfold get
  split
  · split <;> trivial
  · trivial

theorem safe_readInto (old : Bytes) : Safe (readInto old) := by
  intro s
  unfold readInto
  split
  · split <;> trivial
  · trivial

theorem safe_setFail : Safe setFail := fun _ => trivial

theorem safe_checkGood (msg : String) : Safe (checkGood msg) := by
  intro s
  unfold checkGood
  split <;> trivial

theorem safe_skip (n : Nat) : Safe (skip n) := by
  induction n with
  | zero => exact Safe.pure ()
  | succ n ih => exact safe_get.bind (fun _ => ih)

theorem safe_read2 : Safe read2 := safe_get.bind fun _ => safe_get.bind fun _ => Safe.pure _

theorem safe_discard (o : Int) : Safe (discard o) := by
  unfold discard
  by_cases h : o < 0
  · simp only [if_pos h]
    exact safe_setFail.bind fun _ => safe_skip _
  · simp only [if_neg h]
    exact (Safe.pure _).bind fun _ => safe_skip _

theorem parses_get (b : UInt8) : Parses get [b] (b.toNat : Int) := fun _ => rfl

theorem parses_skip (n : Nat) (b : Bytes) (h : b.length = n) : Parses (skip n) b () := by
  induction n generalizing b with
  | zero => rw [List.eq_nil_of_length_eq_zero h]; exact Parses.pure ()
  | succ n ih =>
    cases b with
    | nil => simp at h
    | cons c cs =>
      exact (parses_get c).bind (ih cs (by simpa using h))

theorem parses_read2 {v : Int} (h : U16 v) : Parses read2 (write2 v) v := by
  obtain ⟨h0, h1⟩ := h
  intro t
  unfold write2
  rw [bsBigWrite2_eq]
  have hp : Spec.pattern 16 v = v.toNat := by
    unfold Spec.pattern
    rw [Int.emod_eq_of_lt h0 (by simpa using h1)]
  rw [hp]
  have e : ∀ b0 b1 : UInt8, ∀ t, read2 ⟨b0 :: b1 :: t, true⟩ = .ok (((Machine.bsBigRead2 (b0 :: b1 :: t)).1 : Int), ⟨t, true⟩) :=
    fun _ _ _ => rfl
  show read2 ⟨UInt8.ofNat (v.toNat / 256 ^ 1) :: UInt8.ofNat (v.toNat / 256 ^ 0) :: t, true⟩ = _
  rw [e, bsBigRead2_cons]
  rw [show [UInt8.ofNat (v.toNat / 256 ^ 1), UInt8.ofNat (v.toNat / 256 ^ 0)] = Spec.encBE 2 v.toNat from rfl,
    beVal_encBE]
  congr 3
  omega

theorem parses_readInto {old b : Bytes} (h : b.length = old.length) : Parses (readInto old) b b := by
  intro t
  unfold readInto
  simp only [if_true]
  rw [if_pos (by simp; omega), ← h, List.take_left, List.drop_left]

theorem parses_discard {o : Int} {b : Bytes} (h0 : 0 ≤ o) (hl : (b.length : Int) = o) : Parses (discard o) b () := by
  unfold discard
  simp only [if_neg (show ¬ o < 0 by omega)]
  exact fun t => parses_skip o.toNat b (by omega) t

theorem parses_zeros {o : Int} (h0 : 0 ≤ o) : Parses (discard o) (List.replicate o.toNat 0) () :=
  parses_discard h0 (by rw [List.length_replicate]; omega)

/-! ### The readers -/

theorem ext_fileHeader : Ext readFileHeader := by
  unfold readFileHeader
  refine (ext_readInto _).bind fun _ => ?_
  iterate 13 refine ext_read2.bind fun _ => ?_
  refine (ext_readInto _).bind fun _ => ?_
  iterate 12 refine ext_read2.bind fun _ => ?_
  exact (ext_discard _).bind fun _ => Ext.pure _

theorem safe_fileHeader : Safe readFileHeader := by
  unfold readFileHeader
  refine (safe_readInto _).bind fun _ => ?_
  iterate 13 refine safe_read2.bind fun _ => ?_
  refine (safe_readInto _).bind fun _ => ?_
  iterate 12 refine safe_read2.bind fun _ => ?_
  exact (safe_discard _).bind fun _ => Safe.pure _

theorem parses_fileHeader {h : FileHeader} (ok : FileHeaderOk h) : Parses readFileHeader (writeFileHeader h) h := by
  obtain ⟨h1, h2, h3, h4⟩ := ok
  simp only [List.mem_cons, List.not_mem_nil, or_false, forall_eq_or_imp, forall_eq] at h4
  obtain ⟨a1, a2, a3, a4, a5, a6, a7, a8, a9, a10, a11, a12, a13, a14, a15, a16, a17, a18, a19, a20, a21, a22, a23,
    a24, a25⟩ := h4
  unfold readFileHeader writeFileHeader
  simp only [List.append_assoc]
  refine (parses_readInto h1).bind ?_
  refine (parses_read2 a1).bind ?_
  refine (parses_read2 a2).bind ?_
  refine (parses_read2 a3).bind ?_
  refine (parses_read2 a4).bind ?_
  refine (parses_read2 a5).bind ?_
  refine (parses_read2 a6).bind ?_
  refine (parses_read2 a7).bind ?_
  refine (parses_read2 a8).bind ?_
  refine (parses_read2 a9).bind ?_
  refine (parses_read2 a10).bind ?_
  refine (parses_read2 a11).bind ?_
  refine (parses_read2 a12).bind ?_
  refine (parses_read2 a13).bind ?_
  refine (parses_readInto (by rw [h2]; rfl)).bind ?_
  refine (parses_read2 a14).bind ?_
  refine (parses_read2 a15).bind ?_
  refine (parses_read2 a16).bind ?_
  refine (parses_read2 a17).bind ?_
  refine (parses_read2 a18).bind ?_
  refine (parses_read2 a19).bind ?_
  refine (parses_read2 a20).bind ?_
  refine (parses_read2 a21).bind ?_
  refine (parses_read2 a22).bind ?_
  refine (parses_read2 a23).bind ?_
  refine (parses_read2 a24).bind ?_
  refine (parses_read2 a25).bind ?_
  have := (parses_zeros (o := h.record_length + 2 - 60) (by omega)).bind
    (f := fun _ => (pure h : Rd FileHeader)) (Parses.pure h)
  rw [List.append_nil] at this
  exact this

theorem ext_recordHeader : Ext readRecordHeader := by
  unfold readRecordHeader
  refine (ext_readInto _).bind fun _ => ?_
  iterate 4 refine ext_read2.bind fun _ => ?_
  exact Ext.pure _

theorem safe_recordHeader : Safe readRecordHeader := by
  unfold readRecordHeader
  refine (safe_readInto _).bind fun _ => ?_
  iterate 4 refine safe_read2.bind fun _ => ?_
  exact Safe.pure _

theorem parses_recordHeader {h : RecordHeader} (h1 : h.fortran.length = 2)
    (h2 : ∀ v ∈ [h.record_header_length, h.no_scanlines, h.record_length, h.zero], U16 v) :
    Parses readRecordHeader (writeRecordHeader h) h := by
  simp only [List.mem_cons, List.not_mem_nil, or_false, forall_eq_or_imp, forall_eq] at h2
  obtain ⟨a1, a2, a3, a4⟩ := h2
  unfold readRecordHeader writeRecordHeader
  rw [← List.append_nil (_ ++ _)]
  simp only [List.append_assoc]
  refine (parses_readInto h1).bind ?_
  refine (parses_read2 a1).bind ?_
  refine (parses_read2 a2).bind ?_
  refine (parses_read2 a3).bind ?_
  refine (parses_read2 a4).bind ?_
  exact Parses.pure h

theorem ext_lineHeader : Ext readLineHeader := by
  unfold readLineHeader
  iterate 8 refine ext_read2.bind fun _ => ?_
  exact Ext.pure _

theorem safe_lineHeader : Safe readLineHeader := by
  unfold readLineHeader
  iterate 8 refine safe_read2.bind fun _ => ?_
  exact Safe.pure _

theorem parses_lineHeader {h : LineHeader}
    (h2 : ∀ v ∈ [h.length, h.line, h.start, h.no_pixels, h.channel_id, h.quality, h.pad0, h.pad1], U16 v) :
    Parses readLineHeader (writeLineHeader h) h := by
  simp only [List.mem_cons, List.not_mem_nil, or_false, forall_eq_or_imp, forall_eq] at h2
  obtain ⟨a1, a2, a3, a4, a5, a6, a7, a8⟩ := h2
  unfold readLineHeader writeLineHeader
  rw [← List.append_nil (_ ++ _)]
  simp only [List.append_assoc]
  refine (parses_read2 a1).bind ?_
  refine (parses_read2 a2).bind ?_
  refine (parses_read2 a3).bind ?_
  refine (parses_read2 a4).bind ?_
  refine (parses_read2 a5).bind ?_
  refine (parses_read2 a6).bind ?_
  refine (parses_read2 a7).bind ?_
  refine (parses_read2 a8).bind ?_
  exact Parses.pure h

theorem ext_pixels (n : Nat) : Ext (readPixels n) := by
  induction n with
  | zero => exact Ext.pure _
  | succ n ih => exact ext_get.bind fun _ => (ext_checkGood _).bind fun _ => ih.bind fun _ => Ext.pure _

theorem safe_pixels (n : Nat) : Safe (readPixels n) := by
  induction n with
  | zero => exact Safe.pure _
  | succ n ih => exact safe_get.bind fun _ => (safe_checkGood _).bind fun _ => ih.bind fun _ => Safe.pure _

theorem ofInt_toNat (b : UInt8) : UInt8.ofInt (b.toNat : Int) = b := by
  apply UInt8.toNat_inj.1
  have := b.toNat_lt
  simp [UInt8.ofInt]
  omega

theorem parses_pixels (px : Bytes) : Parses (readPixels px.length) px px := by
  induction px with
  | nil => exact Parses.pure _
  | cons c cs ih =>
    refine (parses_get c).bind (b' := cs) (Parses.check ?_)
    have := ih.bind (f := fun x => (pure (UInt8.ofInt (c.toNat : Int) :: x) : Rd Bytes)) (Parses.pure _)
    rw [List.append_nil, ofInt_toNat] at this
    rw [ofInt_toNat]
    exact this

theorem ext_scanLine : Ext readScanLine :=
  ext_lineHeader.bind fun _ => (ext_checkGood _).bind fun _ => (ext_pixels _).bind fun _ =>
    (ext_discard _).bind fun _ => Ext.pure _

theorem safe_scanLine : Safe readScanLine :=
  safe_lineHeader.bind fun _ => (safe_checkGood _).bind fun _ => (safe_pixels _).bind fun _ =>
    (safe_discard _).bind fun _ => Safe.pure _

theorem parses_scanLine {l : ScanLine} (ok : ScanLineOk l) : Parses readScanLine (writeScanLine l) l := by
  obtain ⟨h1, h2, h3⟩ := ok
  unfold readScanLine writeScanLine
  rw [List.append_assoc]
  refine (parses_lineHeader h1).bind (Parses.check ?_)
  rw [h2, Int.toNat_natCast]
  refine (parses_pixels _).bind ?_
  have := (parses_zeros (o := l.lineheader.length - l.linepixel.length - 16) (by omega)).bind
    (f := fun _ => (pure l : Rd ScanLine)) (Parses.pure l)
  rw [List.append_nil] at this
  exact this

theorem ext_scanLines (n : Nat) : Ext (readScanLines n) := by
  induction n with
  | zero => exact Ext.pure _
  | succ n ih => exact ext_scanLine.bind fun _ => (ext_checkGood _).bind fun _ => ih.bind fun _ => Ext.pure _

theorem safe_scanLines (n : Nat) : Safe (readScanLines n) := by
  induction n with
  | zero => exact Safe.pure _
  | succ n ih => exact safe_scanLine.bind fun _ => (safe_checkGood _).bind fun _ => ih.bind fun _ => Safe.pure _

theorem parses_scanLines {ls : List ScanLine} (ok : ∀ l ∈ ls, ScanLineOk l) :
    Parses (readScanLines ls.length) (ls.flatMap writeScanLine) ls := by
  induction ls with
  | nil => exact Parses.pure _
  | cons l ls ih =>
    rw [List.flatMap_cons]
    refine (parses_scanLine (ok l (by simp))).bind (Parses.check ?_)
    have := (ih fun m hm => ok m (List.mem_cons_of_mem _ hm)).bind
      (f := fun x => (pure (l :: x) : Rd (List ScanLine))) (Parses.pure _)
    rw [List.append_nil] at this
    exact this

theorem ext_record : Ext readRecord :=
  ext_recordHeader.bind fun _ => (ext_checkGood _).bind fun _ => (ext_scanLines _).bind fun _ => Ext.pure _

theorem safe_record : Safe readRecord :=
  safe_recordHeader.bind fun _ => (safe_checkGood _).bind fun _ => (safe_scanLines _).bind fun _ => Safe.pure _

theorem parses_record {r : Record} (ok : RecordOk r) : Parses readRecord (writeRecord r) r := by
  obtain ⟨h1, h2, h3, h4⟩ := ok
  unfold readRecord writeRecord
  refine (parses_recordHeader h1 h2).bind (Parses.check ?_)
  rw [h3, Int.toNat_natCast]
  have := (parses_scanLines h4).bind (f := fun x => (pure ⟨r.recordheader, x⟩ : Rd Record)) (Parses.pure _)
  rw [List.append_nil] at this
  exact this

theorem ext_records (n : Nat) : Ext (readRecords n) := by
  induction n with
  | zero => exact Ext.pure _
  | succ n ih => exact ext_record.bind fun _ => (ext_checkGood _).bind fun _ => ih.bind fun _ => Ext.pure _

theorem safe_records (n : Nat) : Safe (readRecords n) := by
  induction n with
  | zero => exact Safe.pure _
  | succ n ih => exact safe_record.bind fun _ => (safe_checkGood _).bind fun _ => ih.bind fun _ => Safe.pure _

theorem parses_records {rs : List Record} (ok : ∀ r ∈ rs, RecordOk r) :
    Parses (readRecords rs.length) (rs.flatMap writeRecord) rs := by
  induction rs with
  | nil => exact Parses.pure _
  | cons r rs ih =>
    rw [List.flatMap_cons]
    refine (parses_record (ok r (by simp))).bind (Parses.check ?_)
    have := (ih fun m hm => ok m (List.mem_cons_of_mem _ hm)).bind
      (f := fun x => (pure (r :: x) : Rd (List Record))) (Parses.pure _)
    rw [List.append_nil] at this
    exact this

theorem ext_alloc (n : Int) : Ext (allocRecords n) := by
  intro s t a s' e hg
  unfold allocRecords at e ⊢
  split at e
  · cases e
  · next h => cases e; exact ⟨hg, by rw [if_neg h]⟩

theorem safe_alloc (n : Int) : Safe (allocRecords n) := by
  intro s
  unfold allocRecords
  split <;> trivial

theorem ext_ids : Ext readIds :=
  ext_fileHeader.bind fun _ => (ext_checkGood _).bind fun _ => (ext_alloc _).bind fun _ =>
    (ext_records _).bind fun _ => Ext.pure _

theorem safe_ids : Safe readIds :=
  safe_fileHeader.bind fun _ => (safe_checkGood _).bind fun _ => (safe_alloc _).bind fun _ =>
    (safe_records _).bind fun _ => Safe.pure _

theorem parses_ids {x : OpenMTP_IDS} (ok : Consistent x) :
    Parses readIds (writeFileHeader x.fileheader ++ x.record.flatMap writeRecord) x := by
  obtain ⟨h1, h2, h3⟩ := ok
  unfold readIds
  refine (parses_fileHeader h1).bind (Parses.check ?_)
  have hn : Parses (allocRecords x.fileheader.no_records) [] x.record.length := by
    intro t
    unfold allocRecords
    rw [if_neg (by omega), h2]
    congr 2
    omega
  have := hn.bind (f := fun n => readRecords n >>= fun rs => (pure ⟨x.fileheader, rs⟩ : Rd OpenMTP_IDS))
    ((parses_records h3).bind (Parses.pure _))
  rw [List.append_nil, List.nil_append] at this
  exact this

/-! ### Ranges of lines -/

theorem rangeLoop_eq {α : Type} (ls : List (List α)) : ∀ first to, first ≤ to →
    rangeLoop first to ls = .ok ((ls.flatten.take to).drop first) := by
  induction ls with
  | nil => intro first to _; simp [rangeLoop]
  | cons l ls ih =>
    intro first to h
    unfold rangeLoop
    rw [List.flatten_cons]
    by_cases h1 : first < l.length
    · rw [if_pos h1, if_pos (by omega), if_pos h1]
      simp only [Outcome.ok_bind]
      by_cases h2 : to < l.length
      · rw [if_pos h2, List.take_append_of_le_length (by omega), Nat.min_eq_left (by omega)]
        rfl
      · rw [if_neg h2, ih 0 _ (by omega), Nat.min_eq_right (by omega), List.take_of_length_le (Nat.le_refl _)]
        simp only [Outcome.ok_bind, Outcome.pure_eq, List.drop_zero]
        rw [List.take_append, List.take_of_length_le (l := l) (by omega), List.drop_append_of_le_length (by omega)]
    · rw [if_neg h1, if_neg h1]
      simp only [Outcome.ok_bind]
      have h2 : ¬ to < l.length := by omega
      rw [if_neg h2, ih _ _ (by omega)]
      simp only [Outcome.ok_bind, Outcome.pure_eq, List.nil_append]
      rw [List.take_append, List.take_of_length_le (l := l) (by omega), List.drop_append, List.drop_of_length_le (l := l) (by omega),
        List.nil_append]

end Msat.Ids
