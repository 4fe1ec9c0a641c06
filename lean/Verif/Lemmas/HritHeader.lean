import Verif.Lemmas.Machine
import Verif.Model.HritHeader
import Verif.Spec.HritHeader

namespace Msat.Hrit
open Machine Time Spec
open HritSpec

/-! ### reading at an offset given by a prefix of known length -/

theorem ui1_pre {buf pre : Bytes} {off v : Nat} {post : Bytes}
    (hb : buf = pre ++ (encBE 1 v ++ post)) (hl : pre.length = off) (h : v < 2 ^ 8) :
    ui1 buf off = .ok v := by
  subst hl; rw [hb, ← List.append_assoc]; exact ui1_at pre v post h

theorem ui2_pre {buf pre : Bytes} {off v : Nat} {post : Bytes}
    (hb : buf = pre ++ (encBE 2 v ++ post)) (hl : pre.length = off) (h : v < 2 ^ 16) :
    ui2 buf off = .ok v := by
  subst hl; rw [hb, ← List.append_assoc]; exact ui2_at pre v post h

theorem ui4_pre {buf pre : Bytes} {off v : Nat} {post : Bytes}
    (hb : buf = pre ++ (encBE 4 v ++ post)) (hl : pre.length = off) (h : v < 2 ^ 32) :
    ui4 buf off = .ok v := by
  subst hl; rw [hb, ← List.append_assoc]; exact ui4_at pre v post h

theorem ui8_pre {buf pre : Bytes} {off v : Nat} {post : Bytes}
    (hb : buf = pre ++ (encBE 8 v ++ post)) (hl : pre.length = off) (h : v < 2 ^ 64) :
    ui8 buf off = .ok v := by
  subst hl; rw [hb, ← List.append_assoc]; exact ui8_at pre v post h

theorem i4_pre {buf pre : Bytes} {off : Nat} {v : Int} {post : Bytes}
    (hb : buf = pre ++ (encBE 4 (pattern 32 v) ++ post)) (hl : pre.length = off)
    (h : -2 ^ 31 ≤ v) (h' : v < 2 ^ 31) : i4 buf off = .ok v := by
  subst hl; rw [hb, ← List.append_assoc]; exact i4_at pre v post h h'

theorem cdsShort_pre {buf pre : Bytes} {off day msec : Nat} {post : Bytes}
    (hb : buf = pre ++ (encBE 2 day ++ (encBE 4 msec ++ post))) (hl : pre.length = off)
    (h : day < 2 ^ 16) (h' : msec < 2 ^ 32) :
    cdsShort buf off = .ok (cdsShortOf day msec) := by
  subst hl
  have := cdsShort_at pre day msec post h h'
  simp only [List.append_assoc] at this
  rw [hb, this]

theorem slice_pre {buf pre : Bytes} {off n : Nat} {t post : Bytes}
    (hb : buf = pre ++ (t ++ post)) (hl : pre.length = off) (hn : t.length = n) :
    slice buf off n = .ok t := by
  subst hl hn
  have : pre.length + t.length ≤ buf.length := by subst hb; simp
  rw [slice, if_pos this, hb]
  simp

theorem takeWhile_nz {t : Bytes} (h : (0 : UInt8) ∉ t) : t.takeWhile (· ≠ 0) = t := by
  induction t with
  | nil => rfl
  | cons x xs ih =>
    have hx : x ≠ 0 := by rintro rfl; simp at h
    rw [List.takeWhile_cons, if_pos (by simpa using hx),
      ih (fun hh => h (List.mem_cons_of_mem _ hh))]

theorem code_lt (r : Rec) : r.code < 2 ^ 8 := by cases r <;> simp [Rec.code]

/-- shape of an encoded record followed by other bytes -/
theorem encode_shape (r : Rec) (post : Bytes) :
    r.encode ++ post = encBE 1 r.code ++ (encBE 2 (3 + r.body.length) ++ (r.body ++ post)) := by
  simp [Rec.encode]

theorem lineQ_length (q : LineQ) : q.encode.length = 13 := by simp [LineQ.encode]

theorem lineQs_length (qs : List LineQ) : (qs.flatMap LineQ.encode).length = 13 * qs.length := by
  induction qs with
  | nil => rfl
  | cons q qs ih => simp only [List.flatMap_cons, List.length_append, lineQ_length, ih,
      List.length_cons]; omega

theorem body_length_lt (r : Rec) (h : r.InRange) : 3 + r.body.length < 2 ^ 16 := by
  cases r with
  | lineQuality qs =>
    simp only [Rec.body, lineQs_length]; simp only [Rec.InRange] at h; omega
  | navigation p a b c d =>
    simp only [Rec.InRange] at h; simp only [Rec.body, List.length_append, encBE_length]; omega
  | dataFunction t => simp only [Rec.InRange] at h; simp only [Rec.body]; omega
  | ancillary t => simp only [Rec.InRange] at h; simp only [Rec.body]; omega
  | annotation t => simp only [Rec.InRange] at h; simp only [Rec.body]; omega
  | _ => simp [Rec.body]

theorem ty_pre (r : Rec) (post : Bytes) : ui1 (r.encode ++ post) 0 = .ok r.code :=
  ui1_pre (pre := []) (by rw [encode_shape]; rfl) rfl (code_lt r)

theorem len_pre (r : Rec) (post : Bytes) (h : r.InRange) :
    ui2 (r.encode ++ post) 1 = .ok (3 + r.body.length) :=
  ui2_pre (pre := encBE 1 r.code) (encode_shape r post) (by simp) (body_length_lt r h)

/-- What the model stores for a line quality entry. -/
def lineQOf (q : LineQ) : LineQuality :=
  { line := q.line, acquisition := cdsShortOf q.day q.msec, validity := q.validity,
    radiometric := q.radiometric, geometric := q.geometric }

theorem readLineQuality_pre {buf pre post : Bytes} {off : Nat} {q : LineQ}
    (hb : buf = pre ++ (q.encode ++ post)) (hl : pre.length = off) (h : q.InRange) :
    readLineQuality buf off = .ok (lineQOf q) := by
  obtain ⟨h1, h2, h3, h4, h5, h6, h7⟩ := h
  simp only [LineQ.encode] at hb
  have e1 : i4 buf off = .ok q.line := i4_pre (pre := pre) (by rw [hb]; simp [List.append_assoc]; rfl) hl h1 h2
  have e2 : cdsShort buf (off + 4) = .ok (cdsShortOf q.day q.msec) :=
    cdsShort_pre (pre := pre ++ encBE 4 (pattern 32 q.line)) (by rw [hb]; simp only [List.append_assoc]; rfl)
      (by simp; omega) h3 h4
  have e3 : ui1 buf (off + 10) = .ok q.validity :=
    ui1_pre (pre := pre ++ encBE 4 (pattern 32 q.line) ++ encBE 2 q.day ++ encBE 4 q.msec)
      (by rw [hb]; simp only [List.append_assoc]; rfl) (by simp; omega) h5
  have e4 : ui1 buf (off + 11) = .ok q.radiometric :=
    ui1_pre (pre := pre ++ encBE 4 (pattern 32 q.line) ++ encBE 2 q.day ++ encBE 4 q.msec ++
        encBE 1 q.validity)
      (by rw [hb]; simp only [List.append_assoc]; rfl) (by simp; omega) h6
  have e5 : ui1 buf (off + 12) = .ok q.geometric :=
    ui1_pre (pre := pre ++ encBE 4 (pattern 32 q.line) ++ encBE 2 q.day ++ encBE 4 q.msec ++
        encBE 1 q.validity ++ encBE 1 q.radiometric)
      (by rw [hb]; simp only [List.append_assoc]; rfl) (by simp; omega) h7
  simp only [readLineQuality, e1, e2, e3, e4, e5, Outcome.ok_bind, Outcome.pure_eq]
  rfl

theorem readLineQualities_pre {buf : Bytes} (qs : List LineQ) : ∀ {pre post : Bytes} {off : Nat},
    buf = pre ++ (qs.flatMap LineQ.encode ++ post) → pre.length = off → (∀ q ∈ qs, q.InRange) →
    readLineQualities buf off qs.length = .ok (qs.map lineQOf) := by
  induction qs with
  | nil => intros; rfl
  | cons q qs ih =>
    intro pre post off hb hl h
    have e1 : readLineQuality buf off = .ok (lineQOf q) :=
      readLineQuality_pre (pre := pre) (by rw [hb]; simp only [List.flatMap_cons, List.append_assoc]; rfl) hl
        (h q (by simp))
    have e2 := ih (pre := pre ++ q.encode) (post := post) (off := off + 13)
      (by rw [hb]; simp [List.flatMap_cons, List.append_assoc])
      (by simp [lineQ_length]; omega) (fun q' hq' => h q' (by simp [hq']))
    simp only [List.length_cons, readLineQualities, e1, e2, Outcome.ok_bind, Outcome.pure_eq,
      List.map_cons]

/-! ### the header after one more record -/

/-- What the model stores for an image structure record. -/
def imageStructOf (bpp c l comp : Nat) : ImageStruct :=
  { bpp := bpp, columns := c, lines := l, compression := comp, pixels := c * l,
    size := if c * l * bpp % 8 ≠ 0 then c * l * bpp / 8 + 1 else c * l * bpp / 8 }

/-- What the model stores for the projection name. -/
def projectionOf (p : Bytes) : Bytes × List Bytes :=
  if p.head? = some 71 then (p.take 4, [(p.drop 5).takeWhile (· ≠ 41)])
  else if p.take 2 = [80, 83] then (str "PSD", [])
  else if p.head? = some 77 then (str "MERCATOR", [])
  else ([], [])

/-- What the model stores for an annotation. -/
def annotationOf (t : Bytes) : Annotation :=
  { text := t, channelId := t.take 1, version := (t.drop 2).take 3,
    disseminating := (t.drop 6).take 6, product1 := (t.drop 13).take 12,
    product2 := (t.drop 26).take 9, product3 := (t.drop 36).take 9,
    product4 := (t.drop 46).take 12, flags := (t.drop 59).take 2 }

/-- Effect of a record on the header. -/
def applyRec (h : Header) : Rec → Header
  | .imageStructure bpp c l comp => { h with imageStructure := some (imageStructOf bpp c l comp) }
  | .navigation p a b c d =>
      { h with imageNavigation := some { pname := (projectionOf p).1, params := (projectionOf p).2,
                                         cfac := a, lfac := b, coff := c, loff := d } }
  | .dataFunction t => { h with dataFunction := some t }
  | .annotation t => { h with annotation := some (annotationOf t) }
  | .timestamp _ d m => { h with timestamp := some (cdsShortOf d m) }
  | .ancillary t => { h with ancillary := some t }
  | .key n s => { h with key := some { number := n, seed := s } }
  | .segmentId sc ch sq st en df =>
      { h with segmentId := some { spacecraft := sc, channel := ch, sequence := sq,
                                   plannedStart := st, plannedEnd := en, format := df } }
  | .lineQuality qs => { h with segmentQuality := some (qs.map lineQOf) }

theorem strchr_mem {c : UInt8} {b : Bytes} (hc : c ∈ b) (h0 : (0 : UInt8) ∉ b) :
    ∃ n, strchr c b = .ok (some n) ∧ b.take n = b.takeWhile (· ≠ c) := by
  induction b with
  | nil => simp at hc
  | cons x xs ih =>
    by_cases hx : x = c
    · subst hx; exact ⟨0, by simp [strchr], by simp⟩
    · have hx0 : x ≠ 0 := by rintro rfl; simp at h0
      have hxs : c ∈ xs := by
        rcases List.mem_cons.1 hc with h | h
        · exact absurd h.symm hx
        · exact h
      obtain ⟨n, e, t⟩ := ih hxs (fun h => h0 (List.mem_cons_of_mem _ h))
      refine ⟨n + 1, by simp [strchr, hx, hx0, e], ?_⟩
      have : decide (x ≠ c) = true := by simp [hx]
      rw [List.takeWhile_cons, this, if_pos rfl, List.take_succ_cons, t]

theorem readProjection_ok {p : Bytes} (h0 : (0 : UInt8) ∉ p)
    (hg : p.head? = some 71 → (41 : UInt8) ∈ p.drop 5) (hp : p.take 2 ≠ [80, 79]) :
    readProjection p = .ok (projectionOf p) := by
  unfold readProjection projectionOf
  by_cases h1 : p.head? = some 71
  · rw [if_pos h1, if_pos h1]
    obtain ⟨n, e, t⟩ := strchr_mem (hg h1) (fun h => h0 (List.mem_of_mem_drop h))
    rw [e]
    simp only
    rw [takeWhile_nz (fun h => h0 (List.mem_of_mem_take h)), t]
  · rw [if_neg h1, if_neg h1, if_neg hp]
    by_cases h2 : p.take 2 = [80, 83]
    · rw [if_pos h2, if_pos h2]
    · rw [if_neg h2, if_neg h2]
      by_cases h3 : p.head? = some 77
      · rw [if_pos h3, if_pos h3]
      · rw [if_neg h3, if_neg h3]

theorem checkLen_ok (r : Rec) (post : Bytes) (h : r.InRange) (n : Nat)
    (hn : 3 + r.body.length = n) : checkLen (r.encode ++ post) n = .ok () := by
  simp [checkLen, len_pre r post h, hn]

theorem readRecord_encode (h : Header) (r : Rec) (post : Bytes) (hr : r.InRange)
    (hq : ∀ qs, r = .lineQuality qs → ∃ s, h.imageStructure = some s ∧ s.lines = qs.length) :
    readRecord h (r.encode ++ post) = .ok (applyRec h r, r.encode.length) := by
  have hlen : r.encode.length = 3 + r.body.length := by simp [Rec.encode]; omega
  have hty := ty_pre r post
  have hl := len_pre r post hr
  have hsh := encode_shape r post
  rw [hlen]
  cases r with
  | imageStructure bpp c l comp =>
    obtain ⟨h1, h2, h3, h4, h5⟩ := hr
    have hck := checkLen_ok (.imageStructure bpp c l comp) post ⟨h1, h2, h3, h4, h5⟩ 9 (by simp [Rec.body])
    generalize (Rec.imageStructure bpp c l comp).encode ++ post = buf at *
    simp only [Rec.code, Rec.body, List.append_assoc] at hsh
    have e1 : ui1 buf 3 = .ok bpp := ui1_pre (pre := encBE 1 1 ++ encBE 2 _)
      (by rw [hsh]; simp only [List.append_assoc]; rfl) (by simp) h1
    have e2 : ui2 buf 4 = .ok c := ui2_pre (pre := encBE 1 1 ++ encBE 2 _ ++ encBE 1 bpp)
      (by rw [hsh]; simp only [List.append_assoc]; rfl) (by simp) h2
    have e3 : ui2 buf 6 = .ok l := ui2_pre (pre := encBE 1 1 ++ encBE 2 _ ++ encBE 1 bpp ++ encBE 2 c)
      (by rw [hsh]; simp only [List.append_assoc]; rfl) (by simp) h3
    have e4 : ui1 buf 8 = .ok comp :=
      ui1_pre (pre := encBE 1 1 ++ encBE 2 _ ++ encBE 1 bpp ++ encBE 2 c ++ encBE 2 l)
      (by rw [hsh]; simp only [List.append_assoc]; rfl) (by simp) h4
    have h5' : ¬ c * l ≥ 2 ^ 31 := by omega
    simp [readRecord, hty, Rec.code, hck, readImageStruct, e1, e2, e3, e4, h5', applyRec, imageStructOf,
      Rec.body]
  | navigation p a b c d =>
    obtain ⟨h1, h2, h3, h4, h5⟩ := hr
    have hck := checkLen_ok (.navigation p a b c d) post ⟨h1, h2, h3, h4, h5⟩ 51
      (by simp [Rec.body, h1])
    have hpr := readProjection_ok h2 h3 h4
    generalize (Rec.navigation p a b c d).encode ++ post = buf at *
    simp only [Rec.code, Rec.body, List.append_assoc] at hsh
    have e0 : slice buf 3 32 = .ok p := slice_pre (pre := encBE 1 2 ++ encBE 2 _)
      (by rw [hsh]; simp only [List.append_assoc]; rfl) (by simp) h1
    have e1 : i4 buf 35 = .ok a := i4_pre (pre := encBE 1 2 ++ encBE 2 _ ++ p)
      (by rw [hsh]; simp only [List.append_assoc]; rfl) (by simp [h1])
      (h5 a (by simp)).1 (h5 a (by simp)).2
    have e2 : i4 buf 39 = .ok b := i4_pre (pre := encBE 1 2 ++ encBE 2 _ ++ p ++ encBE 4 (pattern 32 a))
      (by rw [hsh]; simp only [List.append_assoc]; rfl) (by simp [h1])
      (h5 b (by simp)).1 (h5 b (by simp)).2
    have e3 : i4 buf 43 = .ok c := i4_pre (pre := encBE 1 2 ++ encBE 2 _ ++ p ++
        encBE 4 (pattern 32 a) ++ encBE 4 (pattern 32 b))
      (by rw [hsh]; simp only [List.append_assoc]; rfl) (by simp [h1])
      (h5 c (by simp)).1 (h5 c (by simp)).2
    have e4 : i4 buf 47 = .ok d := i4_pre (pre := encBE 1 2 ++ encBE 2 _ ++ p ++
        encBE 4 (pattern 32 a) ++ encBE 4 (pattern 32 b) ++ encBE 4 (pattern 32 c))
      (by rw [hsh]; simp only [List.append_assoc]; rfl) (by simp [h1])
      (h5 d (by simp)).1 (h5 d (by simp)).2
    simp [readRecord, hty, Rec.code, hck, readImageNavig, e0, e1, e2, e3, e4, hpr, applyRec,
      Rec.body, h1]
  | dataFunction t =>
    obtain ⟨h1, h2⟩ := hr
    generalize (Rec.dataFunction t).encode ++ post = buf at *
    simp only [Rec.code, Rec.body] at hsh hl
    have e1 : slice buf 3 t.length = .ok t := slice_pre (pre := encBE 1 3 ++ encBE 2 _)
      (by rw [hsh]; simp only [List.append_assoc]; rfl) (by simp) rfl
    have n1 : ¬ (3 + t.length < 2) := by omega
    have n2 : ¬ (3 + t.length = 2) := by omega
    have n3 : 3 + t.length - 3 = t.length := by omega
    have n4 := takeWhile_nz h1
    simp only [readRecord, hty, Rec.code, readDataFunc, hl, e1, n1, n2, n3, n4, applyRec,
      Rec.body, Outcome.ok_bind, if_false, Outcome.pure_eq]
  | annotation t =>
    obtain ⟨h1, h2⟩ := hr
    have hck := checkLen_ok (.annotation t) post ⟨h1, h2⟩ 64 (by simp [Rec.body, h1])
    generalize (Rec.annotation t).encode ++ post = buf at *
    simp only [Rec.code, Rec.body] at hsh hl
    have e1 : slice buf 3 61 = .ok t := slice_pre (pre := encBE 1 4 ++ encBE 2 _)
      (by rw [hsh]; simp only [List.append_assoc]; rfl) (by simp) h1
    have n4 := takeWhile_nz h2
    have hs : ∀ p n, p ≤ 61 → substr t p n = .ok ((t.drop p).take n) := by
      intro p n hp; rw [substr, if_neg (by omega)]
    simp only [readRecord, hty, Rec.code, readAnnotation, hck, e1, n4, applyRec, annotationOf,
      Rec.body, Outcome.ok_bind, Outcome.pure_eq, h1]
    rw [hs _ _ (by decide), hs _ _ (by decide), hs _ _ (by decide), hs _ _ (by decide),
      hs _ _ (by decide), hs _ _ (by decide), hs _ _ (by decide), hs _ _ (by decide)]
    rfl
  | timestamp p d m =>
    obtain ⟨h1, h2, h3⟩ := hr
    have hck := checkLen_ok (.timestamp p d m) post ⟨h1, h2, h3⟩ 10 (by simp [Rec.body])
    generalize (Rec.timestamp p d m).encode ++ post = buf at *
    simp only [Rec.code, Rec.body, List.append_assoc] at hsh
    have e1 : cdsShort buf 4 = .ok (cdsShortOf d m) :=
      cdsShort_pre (pre := encBE 1 5 ++ encBE 2 _ ++ encBE 1 p)
      (by rw [hsh]; simp only [List.append_assoc]; rfl) (by simp) h2 h3
    simp [readRecord, hty, Rec.code, hck, readTimestamp, e1, applyRec, Rec.body]
  | ancillary t =>
    obtain ⟨h1, h2⟩ := hr
    generalize (Rec.ancillary t).encode ++ post = buf at *
    simp only [Rec.code, Rec.body] at hsh hl
    have e1 : slice buf 3 t.length = .ok t := slice_pre (pre := encBE 1 6 ++ encBE 2 _)
      (by rw [hsh]; simp only [List.append_assoc]; rfl) (by simp) rfl
    have n1 : ¬ (3 + t.length < 3) := by omega
    have n2 : ¬ (3 + t.length = 3) := by omega
    have n3 : 3 + t.length - 3 = t.length := by omega
    simp only [readRecord, hty, Rec.code, readAncillary, hl, e1, n1, n2, n3, applyRec,
      Rec.body, Outcome.ok_bind, if_false, Outcome.pure_eq]
  | key n s =>
    obtain ⟨h1, h2⟩ := hr
    have hck := checkLen_ok (.key n s) post ⟨h1, h2⟩ 12 (by simp [Rec.body])
    generalize (Rec.key n s).encode ++ post = buf at *
    simp only [Rec.code, Rec.body, List.append_assoc] at hsh
    have e1 : ui1 buf 3 = .ok n := ui1_pre (pre := encBE 1 7 ++ encBE 2 _)
      (by rw [hsh]; simp only [List.append_assoc]; rfl) (by simp) h1
    have e2 : ui8 buf 4 = .ok s := ui8_pre (pre := encBE 1 7 ++ encBE 2 _ ++ encBE 1 n)
      (by rw [hsh]; simp only [List.append_assoc]; rfl) (by simp) h2
    simp [readRecord, hty, Rec.code, hck, readKey, e1, e2, applyRec, Rec.body]
  | segmentId sc ch sq st en df =>
    obtain ⟨h1, h2, h3, h4, h5, h6⟩ := hr
    have hck := checkLen_ok (.segmentId sc ch sq st en df) post ⟨h1, h2, h3, h4, h5, h6⟩ 13
      (by simp [Rec.body])
    generalize (Rec.segmentId sc ch sq st en df).encode ++ post = buf at *
    simp only [Rec.code, Rec.body, List.append_assoc] at hsh
    have e1 : ui2 buf 3 = .ok sc := ui2_pre (pre := encBE 1 128 ++ encBE 2 _)
      (by rw [hsh]; simp only [List.append_assoc]; rfl) (by simp) h1
    have e2 : ui1 buf 5 = .ok ch := ui1_pre (pre := encBE 1 128 ++ encBE 2 _ ++ encBE 2 sc)
      (by rw [hsh]; simp only [List.append_assoc]; rfl) (by simp) h2
    have e3 : ui2 buf 6 = .ok sq := ui2_pre (pre := encBE 1 128 ++ encBE 2 _ ++ encBE 2 sc ++ encBE 1 ch)
      (by rw [hsh]; simp only [List.append_assoc]; rfl) (by simp) h3
    have e4 : ui2 buf 8 = .ok st :=
      ui2_pre (pre := encBE 1 128 ++ encBE 2 _ ++ encBE 2 sc ++ encBE 1 ch ++ encBE 2 sq)
      (by rw [hsh]; simp only [List.append_assoc]; rfl) (by simp) h4
    have e5 : ui2 buf 10 = .ok en :=
      ui2_pre (pre := encBE 1 128 ++ encBE 2 _ ++ encBE 2 sc ++ encBE 1 ch ++ encBE 2 sq ++ encBE 2 st)
      (by rw [hsh]; simp only [List.append_assoc]; rfl) (by simp) h5
    have e6 : ui1 buf 12 = .ok df :=
      ui1_pre (pre := encBE 1 128 ++ encBE 2 _ ++ encBE 2 sc ++ encBE 1 ch ++ encBE 2 sq ++ encBE 2 st
        ++ encBE 2 en)
      (by rw [hsh]; simp only [List.append_assoc]; rfl) (by simp) h6
    simp [readRecord, hty, Rec.code, hck, readSegmentId, e1, e2, e3, e4, e5, e6, applyRec, Rec.body]
  | lineQuality qs =>
    obtain ⟨s, hs, hsl⟩ := hq qs rfl
    obtain ⟨h1, h2⟩ := hr
    generalize (Rec.lineQuality qs).encode ++ post = buf at *
    simp only [Rec.code, Rec.body] at hsh hl
    have e1 : readLineQualities buf 3 qs.length = .ok (qs.map lineQOf) :=
      readLineQualities_pre qs (pre := encBE 1 129 ++ encBE 2 _)
        (by rw [hsh]; simp only [List.append_assoc]; rfl) (by simp) h2
    rw [← hsl] at e1
    simp only [readRecord, hty, Rec.code, hs, e1, hl, Outcome.ok_bind, Outcome.pure_eq,
      applyRec, Rec.body]

/-- The loop over a sequence of encoded records applies them in order. -/
theorem readRecords_encode (rs : List Rec) : ∀ (h : Header),
    (∀ r ∈ rs, r.InRange) →
    (∀ before qs after, rs = before ++ .lineQuality qs :: after →
      ∃ s, (before.foldl applyRec h).imageStructure = some s ∧ s.lines = qs.length) →
    readRecords h (rs.flatMap Rec.encode) = .ok (rs.foldl applyRec h) := by
  induction rs with
  | nil => intro h _ _; simp [readRecords]
  | cons r rs ih =>
    intro h hr hq
    have e := readRecord_encode h r (rs.flatMap Rec.encode) (hr r (by simp))
      (fun qs hqs => hq [] qs rs (by simp [hqs]))
    have hpos : 0 < r.encode.length := by simp [Rec.encode]; omega
    rw [List.flatMap_cons]
    generalize hbuf : r.encode ++ rs.flatMap Rec.encode = buf at *
    have hle : r.encode.length ≤ buf.length := by subst hbuf; simp
    have hdrop : buf.drop r.encode.length = rs.flatMap Rec.encode := by subst hbuf; simp
    cases buf with
    | nil => simp at hle; rw [hle] at hpos; simp at hpos
    | cons b bs =>
      rw [readRecords]
      simp only [e]
      rw [if_neg (by omega), dif_pos hle, hdrop]
      rw [ih (applyRec h r) (fun r' h' => hr r' (by simp [h']))]
      · rfl
      · intro before qs after hh
        have := hq (r :: before) qs after (by simp [hh])
        simpa using this

theorem proj_foldl {β : Type} (proj : Header → Option β) (g : Rec → Option β)
    (hstep : ∀ h r, proj (applyRec h r) = (g r).or (proj h)) :
    ∀ (rs : List Rec) (h : Header), proj (rs.foldl applyRec h) = (lastOf g rs).or (proj h) := by
  intro rs
  induction rs with
  | nil => intro h; simp [lastOf]
  | cons r rs ih =>
    intro h
    rw [List.foldl_cons, ih, hstep]
    simp only [lastOf, List.filterMap_cons]
    cases hg : g r with
    | none => simp
    | some b =>
      simp only [List.getLast?_cons]
      cases (rs.filterMap g).getLast? <;> simp

theorem imageLines_fold (rs : List Rec) (h : Header) :
    ((rs.foldl applyRec h).imageStructure.map (·.lines))
      = (imageLines rs).or (h.imageStructure.map (·.lines)) := by
  apply proj_foldl (fun h => h.imageStructure.map (·.lines))
    (fun | .imageStructure _ _ l _ => some l | _ => none)
  intro h r
  cases r <;> simp [applyRec, imageStructOf]

/-- Reading an encoded header, into a header object that may hold records already. -/
theorem readHeader_encode (h0 : Header) (typecode bits : Nat) (rs : List Rec) (data : Bytes)
    (hty : typecode < 2 ^ 8) (hbits : bits < 2 ^ 64)
    (hlen : 16 + (rs.flatMap Rec.encode).length < 2 ^ 32)
    (hr : ∀ r ∈ rs, r.InRange) (hq : QualityConsistent rs) :
    readHeader h0 (encodeHeader typecode bits rs ++ data) = .ok (rs.foldl applyRec
      { h0 with typecode := typecode, totalHeaderLength := 16 + (rs.flatMap Rec.encode).length,
                dataFieldLength := bits,
                filesize := bits / 8 + (16 + (rs.flatMap Rec.encode).length) }, data) := by
  have hfile : (encodeHeader typecode bits rs ++ data) = encBE 1 0 ++ (encBE 2 16 ++
      (encBE 1 typecode ++ (encBE 4 (16 + (rs.flatMap Rec.encode).length) ++
      (encBE 8 bits ++ (rs.flatMap Rec.encode ++ data))))) := by
    simp only [encodeHeader, List.append_assoc]
  have hrecs : ∀ h0 : Header, readRecords h0 (rs.flatMap Rec.encode) = .ok (rs.foldl applyRec h0) := by
    intro h0
    apply readRecords_encode rs h0 hr
    intro before qs after e
    have h1 := hq before qs after e
    have h2 := imageLines_fold before h0
    rw [h1] at h2
    simpa using h2
  have hdrop : (encodeHeader typecode bits rs ++ data).drop 16 = rs.flatMap Rec.encode ++ data := by
    rw [hfile]
    simp only [← List.append_assoc]
    rw [List.append_assoc (as := _ ++ encBE 8 bits)]
    exact List.drop_left' (by simp)
  generalize encodeHeader typecode bits rs ++ data = file at *
  have hfl : ¬ file.length < 16 := by rw [hfile]; simp; omega
  have e0 : ui1 file 0 = .ok 0 := ui1_pre (pre := []) (by rw [hfile]; rfl) rfl (by decide)
  have e1 : ui2 file 1 = .ok 16 := ui2_pre (pre := encBE 1 0) (by rw [hfile]) (by simp) (by decide)
  have e2 : ui1 file 3 = .ok typecode := ui1_pre (pre := encBE 1 0 ++ encBE 2 16)
    (by rw [hfile]; simp only [List.append_assoc]; rfl) (by simp) hty
  have e3 : ui4 file 4 = .ok (16 + (rs.flatMap Rec.encode).length) :=
    ui4_pre (pre := encBE 1 0 ++ encBE 2 16 ++ encBE 1 typecode)
    (by rw [hfile]; simp only [List.append_assoc]; rfl) (by simp) hlen
  have e4 : ui8 file 8 = .ok bits :=
    ui8_pre (pre := encBE 1 0 ++ encBE 2 16 ++ encBE 1 typecode ++ encBE 4 _)
    (by rw [hfile]; simp only [List.append_assoc]; rfl) (by simp) hbits
  have hsz : u32sub (16 + (rs.flatMap Rec.encode).length) 16
      = (rs.flatMap Rec.encode).length := by unfold u32sub; omega
  rw [readHeader, if_neg hfl, e0, Outcome.ok_bind, if_neg (by decide), e1, Outcome.ok_bind,
    if_neg (by decide), e2, Outcome.ok_bind, e3, Outcome.ok_bind, e4, Outcome.ok_bind, hsz, hdrop]
  rw [if_neg (by simp), List.take_left, List.drop_left]
  rw [hrecs, Outcome.ok_bind, Outcome.pure_eq]

/-- Records leave the members of the primary header alone. -/
theorem primary_foldl : ∀ (rs : List Rec) (h : Header), (rs.foldl applyRec h).typecode = h.typecode ∧
    (rs.foldl applyRec h).totalHeaderLength = h.totalHeaderLength ∧
    (rs.foldl applyRec h).dataFieldLength = h.dataFieldLength ∧
    (rs.foldl applyRec h).filesize = h.filesize := by
  intro rs
  induction rs with
  | nil => intro h; simp
  | cons r rs ih =>
    intro h
    obtain ⟨a, b, c, d⟩ := ih (applyRec h r)
    rw [List.foldl_cons, a, b, c, d]
    cases r <;> simp [applyRec]

end Msat.Hrit
