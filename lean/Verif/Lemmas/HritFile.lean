import Verif.Lemmas.HritHeader
import Verif.Lemmas.PrologueDefects
import Verif.Lemmas.Outcome
import Verif.Model.HritFile
import Verif.Spec.HritFile

namespace Msat.Hrit
open Machine Spec HritSpec Layout

/-- The header object left by reading a file. -/
def headerOf (h0 : Header) (typecode : Nat) (rs : List Rec) (data : Bytes) : Header :=
  rs.foldl applyRec
    { h0 with typecode := typecode, totalHeaderLength := 16 + (rs.flatMap Rec.encode).length,
              dataFieldLength := 8 * data.length,
              filesize := 8 * data.length / 8 + (16 + (rs.flatMap Rec.encode).length) }

theorem readHeader_file {typecode : Nat} {rs : List Rec} {data : Bytes} (hf : FileOk typecode rs data)
    (h0 : Header) (rest : Bytes) :
    readHeader h0 (fileOf typecode rs data rest) = .ok (headerOf h0 typecode rs data, data ++ rest) :=
  readHeader_encode h0 typecode _ rs _ hf.type hf.size hf.header hf.records hf.quality

theorem headerOf_typecode (h0 : Header) (typecode : Nat) (rs : List Rec) (data : Bytes) :
    (headerOf h0 typecode rs data).typecode = typecode := (primary_foldl rs _).1

theorem headerOf_size (h0 : Header) (typecode : Nat) (rs : List Rec) (data : Bytes) :
    (headerOf h0 typecode rs data).dataFieldLength / 8 = data.length := by
  have h := (primary_foldl rs
    { h0 with typecode := typecode, totalHeaderLength := 16 + (rs.flatMap Rec.encode).length,
              dataFieldLength := 8 * data.length,
              filesize := 8 * data.length / 8 + (16 + (rs.flatMap Rec.encode).length) }).2.2.1
  unfold headerOf
  rw [h]
  show 8 * data.length / 8 = _
  omega

theorem headerOf_annotation (h0 : Header) (typecode : Nat) (rs : List Rec) (data : Bytes) :
    (headerOf h0 typecode rs data).annotation
      = ((annotation rs).map annotationOf).or h0.annotation := by
  have h := proj_foldl (fun h => h.annotation)
    (fun | .annotation t => some (annotationOf t) | _ => none)
    (by intro h r; cases r <;> simp [applyRec]) rs
    { h0 with typecode := typecode, totalHeaderLength := 16 + (rs.flatMap Rec.encode).length,
              dataFieldLength := 8 * data.length,
              filesize := 8 * data.length / 8 + (16 + (rs.flatMap Rec.encode).length) }
  refine h.trans ?_
  congr 1
  unfold annotation lastOf
  rw [← List.getLast?_map, List.map_filterMap]
  congr 2
  funext r
  cases r <;> rfl

theorem headerOf_structure (h0 : Header) (typecode : Nat) (rs : List Rec) (data : Bytes) :
    (headerOf h0 typecode rs data).imageStructure
      = ((structureOf rs).map fun s => imageStructOf s.1 s.2.1 s.2.2.1 s.2.2.2).or h0.imageStructure := by
  have h := proj_foldl (fun h => h.imageStructure)
    (fun | .imageStructure a b c d => some (imageStructOf a b c d) | _ => none)
    (by intro h r; cases r <;> simp [applyRec]) rs
    { h0 with typecode := typecode, totalHeaderLength := 16 + (rs.flatMap Rec.encode).length,
              dataFieldLength := 8 * data.length,
              filesize := 8 * data.length / 8 + (16 + (rs.flatMap Rec.encode).length) }
  refine h.trans ?_
  congr 1
  unfold structureOf lastOf
  rw [← List.getLast?_map, List.map_filterMap]
  congr 2
  funext r
  cases r <;> rfl

theorem headerOf_segment (h0 : Header) (typecode : Nat) (rs : List Rec) (data : Bytes) :
    (headerOf h0 typecode rs data).segmentId
      = ((segmentOf rs).map fun s => (⟨s.1, s.2.1, s.2.2.1, s.2.2.2.1, s.2.2.2.2.1, s.2.2.2.2.2⟩ : SegmentId)).or
          h0.segmentId := by
  have h := proj_foldl (fun h => h.segmentId)
    (fun | .segmentId a b c d e f => some (⟨a, b, c, d, e, f⟩ : SegmentId) | _ => none)
    (by intro h r; cases r <;> simp [applyRec]) rs
    { h0 with typecode := typecode, totalHeaderLength := 16 + (rs.flatMap Rec.encode).length,
              dataFieldLength := 8 * data.length,
              filesize := 8 * data.length / 8 + (16 + (rs.flatMap Rec.encode).length) }
  refine h.trans ?_
  congr 1
  unfold segmentOf lastOf
  rw [← List.getLast?_map, List.map_filterMap]
  congr 2
  funext r
  cases r <;> rfl

theorem headerOf_navigation (h0 : Header) (typecode : Nat) (rs : List Rec) (data : Bytes) :
    (headerOf h0 typecode rs data).imageNavigation.map (fun n => (n.cfac, n.lfac, n.coff, n.loff))
      = (navigationOf rs).or (h0.imageNavigation.map fun n => (n.cfac, n.lfac, n.coff, n.loff)) := by
  have h := proj_foldl (fun h => h.imageNavigation.map fun n => (n.cfac, n.lfac, n.coff, n.loff))
    (fun | .navigation _ a b c d => some (a, b, c, d) | _ => none)
    (by intro h r; cases r <;> simp [applyRec]) rs
    { h0 with typecode := typecode, totalHeaderLength := 16 + (rs.flatMap Rec.encode).length,
              dataFieldLength := 8 * data.length,
              filesize := 8 * data.length / 8 + (16 + (rs.flatMap Rec.encode).length) }
  exact h

theorem dataField_file (env : Env) (h0 : Header) (typecode : Nat) (rs : List Rec) (data rest : Bytes)
    (hm : env.alloc data.length = true) :
    dataField env (headerOf h0 typecode rs data) (data ++ rest) = .ok data := by
  unfold dataField new
  rw [headerOf_size, if_pos hm, Outcome.ok_bind, if_neg (by simp)]
  simp

theorem contains_iff (s w : Bytes) : contains s w = true ↔ Mentions s w := by
  unfold contains Mentions
  rw [List.any_eq_true]
  constructor
  · rintro ⟨i, _, h⟩
    obtain ⟨b, hb⟩ := List.isPrefixOf_iff_prefix.1 h
    exact ⟨s.take i, b, by rw [hb, List.take_append_drop]⟩
  · rintro ⟨a, b, rfl⟩
    refine ⟨a.length, List.mem_range.2 (by simp; omega), ?_⟩
    rw [List.drop_left]
    exact List.isPrefixOf_iff_prefix.2 ⟨b, rfl⟩

theorem readFile_eq {typecode : Nat} {rs : List Rec} {data : Bytes} (hf : FileOk typecode rs data)
    (env : Env) (rest : Bytes) :
    readFile env (fileOf typecode rs data rest) =
      (readData env .fresh (headerOf .fresh typecode rs data) (data ++ rest)).bind
        fun r => .ok (headerOf .fresh typecode rs data, r.1, r.2) := by
  unfold readFile
  rw [readHeader_file hf, Outcome.ok_bind]
  rfl

end Msat.Hrit

namespace Msat.Layout
open Machine Spec Time

/-- A field is copied into an object that can hold it. -/
def Kind.roomy : Kind → Bool
  | .mem n cap => decide (n ≤ cap)
  | _ => true

/-- All the fields of a layout are. -/
def Lay.roomy : Lay → Bool
  | prim k => k.roomy
  | arr _ l => l.roomy
  | field _ l rest => l.roomy && rest.roomy
  | skip _ rest => rest.roomy
  | done => true

theorem Lay.roomy_reads (l : Lay) : l.roomy = true → ∀ b, ∀ r ∈ l.reads b, r.kind.roomy = true := by
  induction l with
  | prim k => intro h b r hr; simp only [reads, List.mem_singleton] at hr; subst hr; exact h
  | arr n l ih =>
    intro h b r hr
    simp only [reads, List.mem_flatMap, List.mem_map] at hr
    obtain ⟨j, _, r', hr', rfl⟩ := hr
    exact ih h _ r' hr'
  | field nm l rest ih1 ih2 =>
    intro h b r hr
    simp only [roomy, Bool.and_eq_true] at h
    simp only [reads, List.mem_append, List.mem_map] at hr
    rcases hr with ⟨r', hr', rfl⟩ | hr
    · exact ih1 h.1 _ r' hr'
    · exact ih2 h.2 _ r hr
  | skip n rest ih => intro h b r hr; exact ih h _ r hr
  | done => intro h b r hr; simp [reads] at hr

/-- A call that reads inside of the next `n` bytes and returns `n`. -/
def Within (f : ReadFrom) (n : Nat) : Prop :=
  ∀ b, (f b).2 = n ∧ ∀ r ∈ (f b).1, r.off + r.kind.width ≤ b + n ∧ r.kind.roomy = true

/-- The same of a statement. -/
def StmtWithin (s : Stmt) (n : Nat) : Prop :=
  ∀ b p, (s b p).2 = p + n ∧ ∀ r ∈ (s b p).1, r.off + r.kind.width ≤ b + p + n ∧ r.kind.roomy = true

theorem Agrees.within {f : ReadFrom} {l : Lay} (h : Agrees f l) (hr : l.roomy = true) : Within f l.size := by
  intro b
  rw [h b]
  exact ⟨rfl, fun r hm => ⟨(l.reads_bounds b r hm).2, l.roomy_reads hr b r hm⟩⟩

theorem Within.call {f : ReadFrom} {n : Nat} (h : Within f n) (P : Path) : StmtWithin (call P f) n := by
  intro b p
  refine ⟨by simp only [Layout.call, (h (b + p)).1], fun r hr => ?_⟩
  obtain ⟨r', hr', rfl⟩ := List.mem_map.1 hr
  exact (h (b + p)).2 r' hr'

theorem StmtWithin.loop {body : Nat → Stmt} {m : Nat} (h : ∀ i, StmtWithin (body i) m) :
    ∀ n, StmtWithin (loop n body) (n * m) := by
  intro n
  induction n with
  | zero => intro b p; simp [Layout.loop]
  | succ n ih =>
    intro b p
    obtain ⟨h1, h2⟩ := ih b p
    obtain ⟨h3, h4⟩ := h n b (Layout.loop n body b p).2
    simp only [Layout.loop]
    rw [Nat.succ_mul]
    refine ⟨by omega, fun r hr => ?_⟩
    rcases List.mem_append.1 hr with hr | hr
    · have := h2 r hr; exact ⟨by omega, this.2⟩
    · have := h4 r hr; exact ⟨by omega, this.2⟩

theorem StmtWithin.nil : StmtWithin (block []) 0 := by
  intro b p; exact ⟨rfl, fun r hr => by simp [block] at hr⟩

theorem StmtWithin.cons {s : Stmt} {ss : List Stmt} {n m : Nat} (h : StmtWithin s n)
    (hs : StmtWithin (block ss) m) : StmtWithin (block (s :: ss)) (n + m) := by
  intro b p
  obtain ⟨h1, h2⟩ := h b p
  obtain ⟨h3, h4⟩ := hs b (s b p).2
  simp only [block]
  refine ⟨by omega, fun r hr => ?_⟩
  rcases List.mem_append.1 hr with hr | hr
  · have := h2 r hr; exact ⟨by omega, this.2⟩
  · have := h4 r hr; exact ⟨by omega, this.2⟩

theorem StmtWithin.adv (n : Nat) : StmtWithin (adv n) n := by
  intro b p; exact ⟨rfl, fun r hr => by simp [Layout.adv] at hr⟩

theorem StmtWithin.body {ss : List Stmt} {n : Nat} (h : StmtWithin (block ss) n) : Within (body ss) n := by
  intro b
  have := h b 0
  simpa [Layout.body] using this

theorem landmarkObservation_within : Within landmarkObservation 82 := by
  intro b
  simp only [landmarkObservation, bodyRet, block, get, List.append_nil, List.cons_append,
    List.nil_append, List.mem_cons, List.not_mem_nil, or_false, true_and]
  intro r hr
  rcases hr with rfl | rfl | rfl | rfl | rfl | rfl | rfl | rfl | rfl | rfl | rfl <;>
    exact ⟨by simp only [Kind.width]; omega, rfl⟩

theorem navigExtrResult_within : Within navigExtrResult 5680 := by
  have h1 : Within horizonObservation 65 :=
    horizonObservationLay_size ▸ horizonObservation_agrees.within (by decide)
  have h2 : Within starObservation 66 :=
    starObservationLay_size ▸ starObservation_agrees.within (by decide)
  exact StmtWithin.body (.cons (.loop (fun _ => h1.call _) 4) (.cons (.loop (fun _ => h2.call _) 20)
    (.cons (.loop (fun _ => landmarkObservation_within.call _) 50) .nil)))

theorem epilogueData_within : Within epilogueData 380325 := by
  have h1 : Within imageProdStats 340 := imageProdStatsLay_size ▸ imageProdStats_agrees.within (by decide)
  have h2 : Within radiometricQuality 371256 :=
    radiometricQualityLay_size ▸ radiometricQuality_agrees.within (by decide)
  have h3 : Within geometricQuality 2916 :=
    geometricQualityLay_size ▸ geometricQuality_agrees.within (by decide)
  have h4 : Within timelinComple 132 := timelinCompleLay_size ▸ timelinComple_agrees.within (by decide)
  exact StmtWithin.body (.cons (.adv 1) (.cons (h1.call _) (.cons (navigExtrResult_within.call _)
    (.cons (h2.call _) (.cons (h3.call _) (.cons (h4.call _) .nil))))))

theorem ui1_total {buf : Bytes} {off : Nat} (h : off + 1 ≤ buf.length) : ∃ v, ui1 buf off = .ok v := by
  unfold ui1
  rcases e : buf.drop off with _ | ⟨a, t⟩
  · have := congrArg List.length e; simp at this; omega
  · exact ⟨_, rfl⟩

theorem ui2_total {buf : Bytes} {off : Nat} (h : off + 2 ≤ buf.length) : ∃ v, ui2 buf off = .ok v := by
  unfold ui2
  rcases e : buf.drop off with _ | ⟨a, _ | ⟨b, t⟩⟩
  · have := congrArg List.length e; simp at this; omega
  · have := congrArg List.length e; simp at this; omega
  · exact ⟨_, rfl⟩

theorem ui4_total {buf : Bytes} {off : Nat} (h : off + 4 ≤ buf.length) : ∃ v, ui4 buf off = .ok v := by
  unfold ui4
  rcases e : buf.drop off with _ | ⟨a, _ | ⟨b, _ | ⟨c, _ | ⟨d, t⟩⟩⟩⟩
  all_goals first
    | exact ⟨_, rfl⟩
    | (have := congrArg List.length e; simp at this; omega)

theorem i4_total {buf : Bytes} {off : Nat} (h : off + 4 ≤ buf.length) : ∃ v, Machine.i4 buf off = .ok v := by
  unfold Machine.i4
  rcases e : buf.drop off with _ | ⟨a, _ | ⟨b, _ | ⟨c, _ | ⟨d, t⟩⟩⟩⟩
  all_goals first
    | exact ⟨_, rfl⟩
    | (have := congrArg List.length e; simp at this; omega)

theorem ui8_total {buf : Bytes} {off : Nat} (h : off + 8 ≤ buf.length) : ∃ v, ui8 buf off = .ok v := by
  unfold ui8
  rcases e : buf.drop off with _ | ⟨a, _ | ⟨b, _ | ⟨c, _ | ⟨d, _ | ⟨a', _ | ⟨b', _ | ⟨c', _ | ⟨d', t⟩⟩⟩⟩⟩⟩⟩⟩
  all_goals first
    | exact ⟨_, rfl⟩
    | (have := congrArg List.length e; simp at this; omega)

theorem cuc24_total {buf : Bytes} {off : Nat} (h : off + 7 ≤ buf.length) : ∃ v, cuc24 buf off = .ok v := by
  unfold cuc24
  rcases e : buf.drop off with _ | ⟨a, _ | ⟨b, _ | ⟨c, _ | ⟨d, _ | ⟨a', _ | ⟨b', _ | ⟨c', t⟩⟩⟩⟩⟩⟩⟩
  all_goals first
    | exact ⟨_, rfl⟩
    | (have := congrArg List.length e; simp at this; omega)

theorem cdsShort_total {buf : Bytes} {off : Nat} (h : off + 6 ≤ buf.length) :
    ∃ v, cdsShort buf off = .ok v := by
  obtain ⟨a, ha⟩ := ui2_total (buf := buf) (off := off) (by omega)
  obtain ⟨b, hb⟩ := ui4_total (buf := buf) (off := off + 2) (by omega)
  exact ⟨_, by simp only [cdsShort, ha, hb, Outcome.ok_bind]; rfl⟩

/-- A read inside of the buffer into an object that can hold it succeeds. -/
theorem readField_total (k : Kind) (buf : Bytes) (off : Nat) (h : off + k.width ≤ buf.length)
    (hr : k.roomy = true) : ∃ v, readField k buf off = .ok v := by
  cases k <;> simp only [Kind.width] at h
  case u1 => obtain ⟨a, ha⟩ := ui1_total h; exact ⟨_, by simp only [readField, ha]; rfl⟩
  case flag => obtain ⟨a, ha⟩ := ui1_total h; exact ⟨_, by simp only [readField, ha]; rfl⟩
  case u2 => obtain ⟨a, ha⟩ := ui2_total h; exact ⟨_, by simp only [readField, ha]; rfl⟩
  case u4 => obtain ⟨a, ha⟩ := ui4_total h; exact ⟨_, by simp only [readField, ha]; rfl⟩
  case i4 => obtain ⟨a, ha⟩ := i4_total h; exact ⟨_, by simp only [readField, ha]; rfl⟩
  case r4 => obtain ⟨a, ha⟩ := ui4_total h; exact ⟨_, by simp only [readField, ha]; rfl⟩
  case r8 => obtain ⟨a, ha⟩ := ui8_total h; exact ⟨_, by simp only [readField, ha]; rfl⟩
  case cuc => obtain ⟨a, ha⟩ := cuc24_total h; exact ⟨_, by simp only [readField, ha]; rfl⟩
  case t6 => obtain ⟨a, ha⟩ := cdsShort_total h; exact ⟨_, by simp only [readField, ha]; rfl⟩
  case t8 =>
    obtain ⟨a, ha⟩ := cdsShort_total (buf := buf) (off := off) (by omega)
    obtain ⟨b, hb⟩ := ui2_total (buf := buf) (off := off + 6) (by omega)
    exact ⟨_, by simp only [readField, cds, ha, hb, Outcome.ok_bind]; rfl⟩
  case t10 =>
    obtain ⟨a, ha⟩ := cdsShort_total (buf := buf) (off := off) (by omega)
    obtain ⟨b, hb⟩ := ui2_total (buf := buf) (off := off + 6) (by omega)
    obtain ⟨c, hc⟩ := ui2_total (buf := buf) (off := off + 8) (by omega)
    exact ⟨_, by simp only [readField, cdsExpanded, ha, hb, hc, Outcome.ok_bind]; rfl⟩
  case mem n cap =>
    simp only [Kind.roomy, decide_eq_true_eq] at hr
    exact ⟨_, by simp only [readField, if_pos hr, slice, if_pos h, Outcome.ok_bind]; rfl⟩

/-- All the reads of a plan succeed when each of them does; what is stored is what each reads. -/
theorem runReads_total : ∀ (rs : List Read) (buf : Bytes),
    (∀ r ∈ rs, ∃ v, readField r.kind buf r.off = .ok v) →
    ∃ vs, runReads rs buf = .ok vs ∧ vs.map (·.1) = rs.map (·.path) ∧
      (∀ r ∈ rs, ∀ v, readField r.kind buf r.off = .ok v → (r.path, v) ∈ vs) ∧
      (∀ e ∈ vs, ∃ r ∈ rs, r.path = e.1 ∧ readField r.kind buf r.off = .ok e.2) := by
  intro rs
  induction rs with
  | nil => intro buf _; exact ⟨[], rfl, rfl, by simp, by simp⟩
  | cons r rs ih =>
    intro buf h
    obtain ⟨v, hv⟩ := h r (by simp)
    obtain ⟨vs, h1, h2, h3, h4⟩ := ih buf (fun r' hr' => h r' (by simp [hr']))
    refine ⟨(r.path, v) :: vs, by simp only [runReads, hv, h1, Outcome.ok_bind, Outcome.pure_eq],
      by simp [h2], ?_, ?_⟩
    · intro r' hr' w hw
      rcases List.mem_cons.1 hr' with rfl | hr'
      · rw [hv] at hw; cases hw; simp
      · exact List.mem_cons_of_mem _ (h3 r' hr' w hw)
    · intro e he
      rcases List.mem_cons.1 he with rfl | he
      · exact ⟨r, by simp, rfl, hv⟩
      · obtain ⟨r', a, b, c⟩ := h4 e he
        exact ⟨r', by simp [a], b, c⟩

/-- A call that reads inside of the buffer succeeds. -/
theorem Within.run {f : ReadFrom} {n : Nat} (h : Within f n) (buf : Bytes) (base : Nat)
    (hb : base + n ≤ buf.length) :
    ∃ vs, run f buf base = .ok (vs, n) ∧
      (∀ r ∈ (f base).1, ∀ v, readField r.kind buf r.off = .ok v → (r.path, v) ∈ vs) ∧
      (∀ e ∈ vs, ∃ r ∈ (f base).1, r.path = e.1 ∧ readField r.kind buf r.off = .ok e.2) := by
  obtain ⟨vs, h1, _, h3, h4⟩ := runReads_total (f base).1 buf (fun r hr =>
    readField_total _ _ _ (by have := ((h base).2 r hr).1; omega) ((h base).2 r hr).2)
  exact ⟨vs, by simp only [Layout.run, h1, Outcome.ok_bind, Outcome.pure_eq, (h base).1], h3, h4⟩

/-! ### in-range values exist -/

/-- The zero of a kind. -/
def Kind.zero : Kind → Val
  | .u1 | .flag | .u2 | .u4 | .r4 | .r8 | .cuc => .nat 0
  | .i4 => .int 0
  | .t6 | .t8 | .t10 => .time 0 0 0 0
  | .mem n _ => .bytes (List.replicate n 0)

/-- All members zero. -/
def Lay.zero : Lay → Path → Val
  | .prim k, _ => k.zero
  | .arr _ l, _ :: p => l.zero p
  | .field nm l rest, .f x :: p => if x = nm then l.zero p else rest.zero (.f x :: p)
  | .skip _ rest, p => rest.zero p
  | _, _ => .nat 0

/-- The names of the members of a structure. -/
def Lay.heads : Lay → List String
  | .field nm _ rest => nm :: rest.heads
  | .skip _ rest => rest.heads
  | _ => []

/-- The layout ends a structure. -/
def Lay.chain : Lay → Bool
  | .field _ _ rest => rest.chain
  | .skip _ rest => rest.chain
  | .done => true
  | _ => false

/-- The names of the members of every structure differ. -/
def Lay.named : Lay → Bool
  | .prim _ => true
  | .arr _ l => l.named
  | .field nm l rest => l.named && rest.named && rest.chain && !rest.heads.contains nm
  | .skip _ rest => rest.named
  | .done => true

theorem Lay.chain_heads (l : Lay) (h : l.chain = true) (b : Nat) :
    ∀ r ∈ l.reads b, ∃ x p, r.path = .f x :: p ∧ x ∈ l.heads := by
  induction l generalizing b with
  | prim => simp [chain] at h
  | arr => simp [chain] at h
  | field nm l rest ih1 ih2 =>
    intro r hr
    simp only [reads, List.mem_append, List.mem_map] at hr
    rcases hr with ⟨r', _, rfl⟩ | hr
    · exact ⟨nm, r'.path, rfl, by simp [heads]⟩
    · obtain ⟨x, p, e, hx⟩ := ih2 h _ r hr
      exact ⟨x, p, e, by simp [heads, hx]⟩
  | skip n rest ih => intro r hr; exact ih h _ r hr
  | done => simp [reads]

theorem Kind.zero_inRange (k : Kind) (h : k.roomy = true) : k.InRange k.zero := by
  cases k <;> simp_all [zero, InRange, roomy]

theorem Lay.zero_inRange (l : Lay) (h : l.named = true) (hr : l.roomy = true) : l.InRange l.zero := by
  suffices ∀ b, ∀ r ∈ l.reads b, r.kind.InRange (l.zero r.path) from this 0
  induction l with
  | prim k =>
    intro b r hm
    simp only [reads, List.mem_singleton] at hm
    subst hm
    exact Kind.zero_inRange k hr
  | arr n l ih =>
    intro b r hm
    simp only [reads, List.mem_flatMap, List.mem_map] at hm
    obtain ⟨j, _, r', hm, rfl⟩ := hm
    exact ih h hr _ r' hm
  | field nm l rest ih1 ih2 =>
    simp only [named, Bool.and_eq_true, Bool.not_eq_true', List.contains_eq_mem, decide_eq_false_iff_not] at h
    simp only [roomy, Bool.and_eq_true] at hr
    intro b r hm
    simp only [reads, List.mem_append, List.mem_map] at hm
    rcases hm with ⟨r', hm, rfl⟩ | hm
    · have := ih1 h.1.1.1 hr.1 _ r' hm
      simpa [Read.under, zero] using this
    · obtain ⟨x, p, e, hx⟩ := rest.chain_heads h.1.2 _ r hm
      have := ih2 h.1.1.2 hr.2 _ r hm
      rw [e] at this ⊢
      rw [zero, if_neg (show ¬ x = nm from fun e => h.2 (e ▸ hx))]
      exact this
  | skip n rest ih => intro b r hm; exact ih h hr _ r hm
  | done => intro b r hm; simp [reads] at hm

theorem sgsCommon_agrees : Agrees Hrit.sgsCommon HritSpec.sgsCommonLay := by
  intro b
  agree [Hrit.sgsCommon, HritSpec.sgsCommonLay]

theorem sgsCommonLay_size : HritSpec.sgsCommonLay.size = 46 := by
  agree [HritSpec.sgsCommonLay]

end Msat.Layout
