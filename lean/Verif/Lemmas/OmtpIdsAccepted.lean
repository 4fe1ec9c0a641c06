import Verif.Lemmas.OmtpIds

/-! What a successful reading of an OpenMTP-IDS file tells about its result. -/
namespace Msat.Ids
open IdsSpec

/-- A run that leaves the stream good gives a value with `P`. -/
def Post {α : Type} (m : Rd α) (P : α → Prop) : Prop := ∀ s a s', m s = .ok (a, s') → s'.good = true → P a

theorem Post.bind {α β : Type} {m : Rd α} {f : α → Rd β} {P : α → Prop} {Q : β → Prop} (h : Post m P)
    (he : ∀ a, Ext (f a)) (h' : ∀ a, P a → Post (f a) Q) : Post (m >>= f) Q := by
  intro s b s' e hg
  rw [bind_apply] at e
  cases hm : m s with
  | ok r =>
    obtain ⟨a, s1⟩ := r
    rw [hm] at e
    simp only [Outcome.ok_bind] at e
    have g1 := (he a s1 [] b s' e hg).1
    exact h' a (h s a s1 hm g1) s1 b s' e hg
  | throws _ => rw [hm] at e; cases e
  | ub => rw [hm] at e; cases e
  | terminate => rw [hm] at e; cases e
  | diverges => rw [hm] at e; cases e

theorem Post.pure {α : Type} {a : α} {P : α → Prop} (h : P a) : Post (pure a : Rd α) P := by
  intro s b s' e _
  rw [pure_apply] at e
  cases e
  exact h

theorem Post.mono {α : Type} {m : Rd α} {P Q : α → Prop} (h : Post m P) (hq : ∀ a, P a → Q a) : Post m Q :=
  fun s a s' e hg => hq a (h s a s' e hg)

theorem post_true {α : Type} (m : Rd α) : Post m (fun _ => True) := fun _ _ _ _ _ => trivial

theorem post_read2 : Post read2 U16 := by
  unfold read2
  refine (post_true get).bind (fun _ => ext_get.bind fun _ => Ext.pure _) fun c0 _ => ?_
  refine (post_true get).bind (fun _ => Ext.pure _) fun c1 _ => ?_
  refine Post.pure ?_
  generalize (BitVec.ofInt 16 c0 <<< 8 ||| BitVec.ofInt 16 c1) = v
  have := v.isLt
  unfold U16
  omega

theorem post_readInto (old : Bytes) : Post (readInto old) (fun b => b.length = old.length) := by
  intro s a s' e hg
  unfold readInto at e
  split at e
  · split at e
    · cases e
      rw [List.length_take]
      omega
    · cases e
      cases hg
  · cases e
    rfl

theorem skip_bad (n : Nat) (s : IStream) (h : s.good = false) : skip n s = .ok ((), s) := by
  induction n with
  | zero => rfl
  | succ n ih =>
    unfold skip
    rw [bind_apply]
    have : get s = .ok (-1, s) := by
      unfold get
      rw [h]
      rfl
    rw [this]
    exact ih

theorem post_discard (o : Int) : Post (discard o) (fun _ => 0 ≤ o) := by
  intro s a s' e hg
  unfold discard at e
  by_cases h : o < 0
  · rw [if_pos h, bind_apply] at e
    have h1 : setFail s = .ok ((), { s with good := false }) := rfl
    rw [h1] at e
    have e2 : skip o.toNat { s with good := false } = .ok (a, s') := e
    rw [skip_bad _ _ rfl] at e2
    cases e2
    cases hg
  · omega

theorem post_fileHeader : Post readFileHeader FileHeaderOk := by
  unfold readFileHeader
  refine (post_readInto _).bind ?_ fun fortran h1 => ?_
  · intro _
    iterate 13 refine ext_read2.bind fun _ => ?_
    refine (ext_readInto _).bind fun _ => ?_
    iterate 12 refine ext_read2.bind fun _ => ?_
    exact (ext_discard _).bind fun _ => Ext.pure _
  iterate 13
    refine post_read2.bind ?_ fun _ _ => ?_
    · intro _
      repeat refine ext_read2.bind fun _ => ?_
      refine (ext_readInto _).bind fun _ => ?_
      repeat refine ext_read2.bind fun _ => ?_
      exact (ext_discard _).bind fun _ => Ext.pure _
  refine (post_readInto _).bind ?_ fun satellite h2 => ?_
  · intro _
    repeat refine ext_read2.bind fun _ => ?_
    exact (ext_discard _).bind fun _ => Ext.pure _
  iterate 12
    refine post_read2.bind ?_ fun _ _ => ?_
    · intro _
      repeat refine ext_read2.bind fun _ => ?_
      exact (ext_discard _).bind fun _ => Ext.pure _
  refine (post_discard _).bind (fun _ => Ext.pure _) fun _ h3 => ?_
  refine Post.pure ⟨h1, h2, by dsimp only; omega, ?_⟩
  simp only [List.mem_cons, List.not_mem_nil, or_false, forall_eq_or_imp, forall_eq]
  exact ⟨‹_›, ‹_›, ‹_›, ‹_›, ‹_›, ‹_›, ‹_›, ‹_›, ‹_›, ‹_›, ‹_›, ‹_›, ‹_›, ‹_›, ‹_›, ‹_›, ‹_›, ‹_›, ‹_›, ‹_›, ‹_›, ‹_›, ‹_›, ‹_›, ‹_›⟩

theorem post_check {α : Type} {msg : String} {f : Unit → Rd α} {Q : α → Prop} (h : Post (f ()) Q) :
    Post (checkGood msg >>= f) Q := by
  intro s a s' e hg
  rw [bind_apply] at e
  unfold checkGood at e
  split at e
  · exact h s a s' e hg
  · cases e

theorem post_recordHeader : Post readRecordHeader (fun h => h.fortran.length = 2 ∧
    ∀ v ∈ [h.record_header_length, h.no_scanlines, h.record_length, h.zero], U16 v) := by
  unfold readRecordHeader
  refine (post_readInto _).bind ?_ fun fortran h1 => ?_
  · intro _
    repeat refine ext_read2.bind fun _ => ?_
    exact Ext.pure _
  iterate 4
    refine post_read2.bind ?_ fun _ _ => ?_
    · intro _
      repeat refine ext_read2.bind fun _ => ?_
      exact Ext.pure _
  refine Post.pure ⟨h1, ?_⟩
  simp only [List.mem_cons, List.not_mem_nil, or_false, forall_eq_or_imp, forall_eq]
  exact ⟨‹_›, ‹_›, ‹_›, ‹_›⟩

theorem post_lineHeader : Post readLineHeader (fun h => ∀ v ∈ [h.length, h.line, h.start, h.no_pixels, h.channel_id,
    h.quality, h.pad0, h.pad1], U16 v) := by
  unfold readLineHeader
  iterate 8
    refine post_read2.bind ?_ fun _ _ => ?_
    · intro _
      repeat refine ext_read2.bind fun _ => ?_
      exact Ext.pure _
  refine Post.pure ?_
  simp only [List.mem_cons, List.not_mem_nil, or_false, forall_eq_or_imp, forall_eq]
  exact ⟨‹_›, ‹_›, ‹_›, ‹_›, ‹_›, ‹_›, ‹_›, ‹_›⟩

theorem post_pixels (n : Nat) : Post (readPixels n) (fun b => b.length = n) := by
  induction n with
  | zero => exact Post.pure rfl
  | succ n ih =>
    unfold readPixels
    refine (post_true get).bind (fun _ => (ext_checkGood _).bind fun _ => (ext_pixels n).bind fun _ => Ext.pure _) fun c _ => ?_
    refine post_check ?_
    refine ih.bind (fun _ => Ext.pure _) fun cs hcs => ?_
    refine Post.pure ?_
    rw [List.length_cons, hcs]

theorem post_scanLine : Post readScanLine ScanLineOk := by
  unfold readScanLine
  refine post_lineHeader.bind (fun _ => (ext_checkGood _).bind fun _ => (ext_pixels _).bind fun _ =>
    (ext_discard _).bind fun _ => Ext.pure _) fun h h1 => ?_
  refine post_check ?_
  refine (post_pixels _).bind (fun _ => (ext_discard _).bind fun _ => Ext.pure _) fun px h2 => ?_
  refine (post_discard _).bind (fun _ => Ext.pure _) fun _ h3 => ?_
  have h4 := h1 h.no_pixels (by simp)
  unfold U16 at h4
  exact Post.pure ⟨h1, by dsimp only; omega, by dsimp only; omega⟩

theorem post_scanLines (n : Nat) : Post (readScanLines n) (fun ls => ls.length = n ∧ ∀ l ∈ ls, ScanLineOk l) := by
  induction n with
  | zero => exact Post.pure ⟨rfl, by simp⟩
  | succ n ih =>
    unfold readScanLines
    refine post_scanLine.bind (fun _ => (ext_checkGood _).bind fun _ => (ext_scanLines n).bind fun _ => Ext.pure _)
      fun l hl => ?_
    refine post_check ?_
    refine ih.bind (fun _ => Ext.pure _) fun ls hls => ?_
    refine Post.pure ⟨by rw [List.length_cons, hls.1], ?_⟩
    intro k hk
    rcases List.mem_cons.1 hk with rfl | hk
    · exact hl
    · exact hls.2 k hk

theorem post_record : Post readRecord RecordOk := by
  unfold readRecord
  refine post_recordHeader.bind (fun _ => (ext_checkGood _).bind fun _ => (ext_scanLines _).bind fun _ => Ext.pure _)
    fun h h1 => ?_
  refine post_check ?_
  refine (post_scanLines _).bind (fun _ => Ext.pure _) fun ls hls => ?_
  have h4 := h1.2 h.no_scanlines (by simp)
  unfold U16 at h4
  exact Post.pure ⟨h1.1, h1.2, by dsimp only; omega, hls.2⟩

theorem post_records (n : Nat) : Post (readRecords n) (fun rs => rs.length = n ∧ ∀ r ∈ rs, RecordOk r) := by
  induction n with
  | zero => exact Post.pure ⟨rfl, by simp⟩
  | succ n ih =>
    unfold readRecords
    refine post_record.bind (fun _ => (ext_checkGood _).bind fun _ => (ext_records n).bind fun _ => Ext.pure _)
      fun l hl => ?_
    refine post_check ?_
    refine ih.bind (fun _ => Ext.pure _) fun ls hls => ?_
    refine Post.pure ⟨by rw [List.length_cons, hls.1], ?_⟩
    intro k hk
    rcases List.mem_cons.1 hk with rfl | hk
    · exact hl
    · exact hls.2 k hk

theorem post_alloc (n : Int) (h : U16 n) : Post (allocRecords n) (fun k => n = k + 1) := by
  intro s a s' e hg
  unfold allocRecords at e
  unfold U16 at h
  split at e
  · cases e
  · cases e
    omega

theorem post_ids : Post readIds Consistent := by
  unfold readIds
  refine post_fileHeader.bind (fun _ => (ext_checkGood _).bind fun _ => (ext_alloc _).bind fun _ =>
    (ext_records _).bind fun _ => Ext.pure _) fun h h1 => ?_
  refine post_check ?_
  refine (post_alloc _ (h1.2.2.2 _ (by simp))).bind (fun _ => (ext_records _).bind fun _ => Ext.pure _) fun n h2 => ?_
  refine (post_records n).bind (fun _ => Ext.pure _) fun rs h3 => ?_
  exact Post.pure ⟨h1, by dsimp only; omega, h3.2⟩

theorem readFile_consistent {content : Bytes} {x : OpenMTP_IDS} (h : readFile content = .ok x) : Consistent x := by
  unfold readFile at h
  cases hm : readIds ⟨content, true⟩ with
  | ok r =>
    obtain ⟨y, s⟩ := r
    rw [hm] at h
    simp only [Outcome.ok_bind] at h
    split at h
    · cases h
      exact post_ids _ _ _ hm ‹_›
    · cases h
  | throws _ => rw [hm] at h; cases h
  | ub => rw [hm] at h; cases h
  | terminate => rw [hm] at h; cases h
  | diverges => rw [hm] at h; cases h

/-! ### Which exceptions -/

/-- Every exception of a run has a message in `S`. -/
def Msgs {α : Type} (m : Rd α) (S : String → Prop) : Prop := ∀ s msg, m s = .throws msg → S msg

theorem Msgs.bind {α β : Type} {m : Rd α} {f : α → Rd β} {S : String → Prop} (h : Msgs m S) (h' : ∀ a, Msgs (f a) S) :
    Msgs (m >>= f) S := by
  intro s msg e
  rw [bind_apply] at e
  cases hm : m s with
  | ok r => rw [hm] at e; exact h' r.1 r.2 msg e
  | throws k => rw [hm] at e; simp only [Outcome.throws_bind] at e; cases e; exact h s _ hm
  | ub => rw [hm] at e; cases e
  | terminate => rw [hm] at e; cases e
  | diverges => rw [hm] at e; cases e

theorem Msgs.pure {α : Type} (a : α) (S : String → Prop) : Msgs (pure a : Rd α) S := by
  intro s msg e
  rw [pure_apply] at e
  cases e

theorem msgs_get (S : String → Prop) : Msgs get S := by
  intro s msg e
  unfold get at e
  split at e
  · split at e <;> cases e
  · cases e

theorem msgs_readInto (old : Bytes) (S : String → Prop) : Msgs (readInto old) S := by
  intro s msg e
  unfold readInto at e
  split at e
  · split at e <;> cases e
  · cases e

theorem msgs_check (m : String) {S : String → Prop} (h : S m) : Msgs (checkGood m) S := by
  intro s msg e
  unfold checkGood at e
  split at e
  · cases e
  · cases e; exact h

theorem msgs_skip (n : Nat) (S : String → Prop) : Msgs (skip n) S := by
  induction n with
  | zero => exact Msgs.pure _ _
  | succ n ih => unfold skip; exact (msgs_get S).bind fun _ => ih

theorem msgs_read2 (S : String → Prop) : Msgs read2 S :=
  (msgs_get S).bind fun _ => (msgs_get S).bind fun _ => Msgs.pure _ _

theorem msgs_discard (o : Int) (S : String → Prop) : Msgs (discard o) S := by
  unfold discard
  split
  · exact Msgs.bind (fun s msg e => by cases e) fun _ => msgs_skip _ S
  · exact Msgs.bind (Msgs.pure _ _) fun _ => msgs_skip _ S

theorem msgs_fileHeader (S : String → Prop) : Msgs readFileHeader S := by
  unfold readFileHeader
  refine (msgs_readInto _ S).bind fun _ => ?_
  iterate 13 refine (msgs_read2 S).bind fun _ => ?_
  refine (msgs_readInto _ S).bind fun _ => ?_
  iterate 12 refine (msgs_read2 S).bind fun _ => ?_
  exact (msgs_discard _ S).bind fun _ => Msgs.pure _ _

/-- The literals thrown while reading records. -/
def recordMessages : List String := ["failure while reading line pixel", "failure while reading line header",
  "failure while reading scan line", "failure while reading record header", "failure while reading record"]

theorem msgs_pixels (n : Nat) : Msgs (readPixels n) (· ∈ recordMessages) := by
  induction n with
  | zero => exact Msgs.pure _ _
  | succ n ih =>
    unfold readPixels
    exact (msgs_get _).bind fun _ => (msgs_check _ (by decide)).bind fun _ => ih.bind fun _ => Msgs.pure _ _

theorem msgs_scanLine : Msgs readScanLine (· ∈ recordMessages) := by
  unfold readScanLine
  refine Msgs.bind ?_ fun _ => (msgs_check _ (by decide)).bind fun _ => (msgs_pixels _).bind fun _ =>
    (msgs_discard _ _).bind fun _ => Msgs.pure _ _
  unfold readLineHeader
  iterate 8 refine (msgs_read2 _).bind fun _ => ?_
  exact Msgs.pure _ _

theorem msgs_scanLines (n : Nat) : Msgs (readScanLines n) (· ∈ recordMessages) := by
  induction n with
  | zero => exact Msgs.pure _ _
  | succ n ih =>
    unfold readScanLines
    exact msgs_scanLine.bind fun _ => (msgs_check _ (by decide)).bind fun _ => ih.bind fun _ => Msgs.pure _ _

theorem msgs_record : Msgs readRecord (· ∈ recordMessages) := by
  unfold readRecord
  refine Msgs.bind ?_ fun _ => (msgs_check _ (by decide)).bind fun _ => (msgs_scanLines _).bind fun _ => Msgs.pure _ _
  unfold readRecordHeader
  refine (msgs_readInto _ _).bind fun _ => ?_
  iterate 4 refine (msgs_read2 _).bind fun _ => ?_
  exact Msgs.pure _ _

theorem msgs_records (n : Nat) : Msgs (readRecords n) (· ∈ recordMessages) := by
  induction n with
  | zero => exact Msgs.pure _ _
  | succ n ih =>
    unfold readRecords
    exact msgs_record.bind fun _ => (msgs_check _ (by decide)).bind fun _ => ih.bind fun _ => Msgs.pure _ _

/-- Reading records leaves a good stream good. -/
theorem records_good (n : Nat) : ∀ s a s', readRecords n s = .ok (a, s') → s.good = true → s'.good = true := by
  induction n with
  | zero => intro s a s' e h; cases e; exact h
  | succ n ih =>
    intro s a s' e h
    unfold readRecords at e
    rw [bind_apply] at e
    cases hr : readRecord s with
    | ok r =>
      rw [hr] at e
      have e1 : (checkGood "failure while reading record" >>= fun _ => readRecords n >>= fun rs => pure (r.1 :: rs)) r.2
        = .ok (a, s') := e
      rw [bind_apply] at e1
      unfold checkGood at e1
      by_cases hg : r.2.good = true
      · rw [if_pos hg] at e1
        have e2 : (readRecords n >>= fun rs => (pure (r.1 :: rs) : Rd (List Record))) r.2 = .ok (a, s') := e1
        rw [bind_apply] at e2
        cases hs : readRecords n r.2 with
        | ok q =>
          rw [hs] at e2
          have := ih r.2 q.1 q.2 hs hg
          cases e2
          exact this
        | throws k => rw [hs] at e2; cases e2
        | ub => rw [hs] at e2; cases e2
        | terminate => rw [hs] at e2; cases e2
        | diverges => rw [hs] at e2; cases e2
      · rw [if_neg hg] at e1
        cases e1
    | throws k => rw [hr] at e; cases e
    | ub => rw [hr] at e; cases e
    | terminate => rw [hr] at e; cases e
    | diverges => rw [hr] at e; cases e

theorem bind_good {α β : Type} {m : Rd α} {f : α → Rd β} {s s' : IStream} {b : β} (he : ∀ a, Ext (f a))
    (e : (m >>= f) s = .ok (b, s')) (hg : s'.good = true) :
    ∃ a s1, m s = .ok (a, s1) ∧ s1.good = true ∧ f a s1 = .ok (b, s') := by
  rw [bind_apply] at e
  cases hm : m s with
  | ok r =>
    obtain ⟨a, s1⟩ := r
    rw [hm] at e
    exact ⟨a, s1, rfl, (he a s1 [] b s' e hg).1, e⟩
  | throws _ => rw [hm] at e; cases e
  | ub => rw [hm] at e; cases e
  | terminate => rw [hm] at e; cases e
  | diverges => rw [hm] at e; cases e

theorem read2_bytes (c d : UInt8) (rest : Bytes) :
    read2 ⟨c :: d :: rest, true⟩ = .ok (256 * (c.toNat : Int) + d.toNat, ⟨rest, true⟩) := by
  have e : read2 ⟨c :: d :: rest, true⟩ = .ok (((Machine.bsBigRead2 (c :: d :: rest)).1 : Int), ⟨rest, true⟩) := rfl
  rw [e, bsBigRead2_cons]
  congr 2
  show ((Spec.beVal [c, d] : Nat) : Int) = _
  simp [Spec.beVal]
  omega

/-- The number of records is in the third and fourth bytes. -/
theorem header_records {content : Bytes} {h : FileHeader} {s : IStream}
    (e : readFileHeader ⟨content, true⟩ = .ok (h, s)) (hg : s.good = true) :
    ∃ a b c d rest, content = a :: b :: c :: d :: rest ∧ h.no_records = 256 * (c.toNat : Int) + d.toNat := by
  unfold readFileHeader at e
  obtain ⟨f, s1, e1, g1, e2⟩ := bind_good (fun _ => by
    iterate 13 refine ext_read2.bind fun _ => ?_
    refine (ext_readInto _).bind fun _ => ?_
    iterate 12 refine ext_read2.bind fun _ => ?_
    exact (ext_discard _).bind fun _ => Ext.pure _) e hg
  clear e
  obtain ⟨n, s2, e3, g2, e4⟩ := bind_good (fun _ => by
    iterate 12 refine ext_read2.bind fun _ => ?_
    refine (ext_readInto _).bind fun _ => ?_
    iterate 12 refine ext_read2.bind fun _ => ?_
    exact (ext_discard _).bind fun _ => Ext.pure _) e2 hg
  clear e2
  have hn : h.no_records = n := by
    refine (?_ : Post _ (fun h : FileHeader => h.no_records = n)) _ _ _ e4 hg
    clear e4
    iterate 12
      refine post_read2.bind ?_ fun _ _ => ?_
      · intro _
        repeat refine ext_read2.bind fun _ => ?_
        refine (ext_readInto _).bind fun _ => ?_
        repeat refine ext_read2.bind fun _ => ?_
        exact (ext_discard _).bind fun _ => Ext.pure _
    refine (post_readInto _).bind ?_ fun _ _ => ?_
    · intro _
      repeat refine ext_read2.bind fun _ => ?_
      exact (ext_discard _).bind fun _ => Ext.pure _
    iterate 12
      refine post_read2.bind ?_ fun _ _ => ?_
      · intro _
        repeat refine ext_read2.bind fun _ => ?_
        exact (ext_discard _).bind fun _ => Ext.pure _
    refine (post_discard _).bind (fun _ => Ext.pure _) fun _ _ => ?_
    exact Post.pure rfl
  clear e4
  rw [hn]
  unfold readInto at e1
  rw [if_pos rfl] at e1
  by_cases hl : ([0, 1] : Bytes).length ≤ content.length
  · rw [if_pos hl] at e1
    match content, hl, e1 with
    | a :: b :: r, _, e1 =>
      have hs : s1 = ⟨r, true⟩ := by cases e1; rfl
      subst hs
      match r, e3 with
      | c :: d :: rest, e3 =>
        rw [read2_bytes] at e3
        cases e3
        exact ⟨a, b, c, d, rest, rfl, rfl⟩
      | [c], e3 => cases e3; cases g2
      | [], e3 => cases e3; cases g2
  · rw [if_neg hl] at e1
    cases e1
    cases g1

/-- The steps of reading a whole file. -/
theorem readIds_steps (s : IStream) : readIds s = (readFileHeader s >>= fun r =>
    if r.2.good then
      if r.1.no_records = 0 then .throws "bad_alloc"
      else readRecords (r.1.no_records - 1).toNat r.2 >>= fun q => .ok (⟨r.1, q.1⟩, q.2)
    else .throws "failure while reading file header") := by
  unfold readIds
  rw [bind_apply]
  congr 1
  funext r
  rw [bind_apply]
  unfold checkGood
  by_cases hg : r.2.good = true
  · rw [if_pos hg, if_pos hg, Outcome.ok_bind]
    show (allocRecords r.1.no_records >>= fun n => readRecords n >>= fun rs => (pure ⟨r.1, rs⟩ : Rd OpenMTP_IDS)) r.2 = _
    rw [bind_apply]
    unfold allocRecords
    by_cases h0 : r.1.no_records = 0
    · rw [if_pos h0, if_pos h0]
      rfl
    · rw [if_neg h0, if_neg h0]
      rfl
  · rw [if_neg hg, if_neg hg]
    rfl

/-- Which exceptions reading a file throws. -/
theorem readFile_throws {content : Bytes} {msg : String} (h : readFile content = .throws msg) :
    msg ∈ "failure while reading file header" :: recordMessages ∨
    msg = "bad_alloc" ∧ ∃ a b rest, content = a :: b :: 0 :: 0 :: rest := by
  unfold readFile at h
  rw [readIds_steps] at h
  cases hm : readFileHeader ⟨content, true⟩ with
  | ok r =>
    obtain ⟨x, s⟩ := r
    rw [hm] at h
    simp only [Outcome.ok_bind] at h
    by_cases hg : s.good = true
    · rw [if_pos hg] at h
      by_cases h0 : x.no_records = 0
      · rw [if_pos h0] at h
        simp only [Outcome.throws_bind] at h
        cases h
        refine .inr ⟨rfl, ?_⟩
        obtain ⟨a, b, c, d, rest, e1, e2⟩ := header_records hm hg
        have hc : c.toNat = 0 := by omega
        have hd : d.toNat = 0 := by omega
        have hc' : c = 0 := UInt8.toNat_inj.1 hc
        have hd' : d = 0 := UInt8.toNat_inj.1 hd
        subst hc'
        subst hd'
        exact ⟨a, b, rest, e1⟩
      · rw [if_neg h0] at h
        cases hr : readRecords (x.no_records - 1).toNat s with
        | ok q =>
          rw [hr] at h
          simp only [Outcome.ok_bind] at h
          rw [if_pos (records_good _ _ _ _ hr hg)] at h
          cases h
        | throws k =>
          rw [hr] at h
          simp only [Outcome.throws_bind] at h
          cases h
          exact .inl (List.mem_cons_of_mem _ (msgs_records _ _ _ hr))
        | ub => rw [hr] at h; cases h
        | terminate => rw [hr] at h; cases h
        | diverges => rw [hr] at h; cases h
    · rw [if_neg hg] at h
      simp only [Outcome.throws_bind] at h
      cases h
      exact .inl List.mem_cons_self
  | throws k => exact (msgs_fileHeader (fun _ => False) _ _ hm).elim
  | ub => rw [hm] at h; cases h
  | terminate => rw [hm] at h; cases h
  | diverges => rw [hm] at h; cases h

end Msat.Ids
