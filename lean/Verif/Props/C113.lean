import Verif.Lemmas.GribHandle
import Verif.Props.C13_C16

/-
C113 Opening GRIB files, whatever the library says of the message; handles and files are released once.
-/
namespace Msat.Props
open Msat GribHandle GribHandleSpec

/-! ### What is opened -/

/-- A file with no GRIB among its first bytes, before any zero, or with less than four bytes, is left alone: the null pointer, and nothing is
opened.  All the others are opened. -/
theorem C113_signature (tolerant : Bool) (f : File) :
    (f.isFile = false ∨ f.header.length < 4 ∨ ¬ Signature f.header → gribOpen tolerant f = (.ok none, [])) ∧
    (f.isFile = true → Signature f.header → (gribOpen tolerant f).2.head? = some (.construct f.traceable)) := by
  constructor
  · intro h
    unfold gribOpen
    split
    · rfl
    split
    · rfl
    split
    · rfl
    rename_i h1 h2 h3
    exfalso
    rcases h with h | h | h
    · simp [h] at h1
    · exact h2 h
    · rw [← signed_iff] at h
      simp [h] at h3
  · intro h1 h2
    have hlen : ¬ f.header.length < 4 := by
      obtain ⟨a, b, e, -⟩ := h2
      rw [e]
      have : (str "GRIB").length = 4 := by decide
      simp only [List.length_append]
      omega
    rw [← signed_iff] at h2
    unfold gribOpen
    rw [if_neg (by simp [h1]), if_neg hlen, if_neg (by simp [h2])]
    split
    · rfl
    split
    · rfl
    dsimp only
    split <;> rfl

/-- A bulletin header before the message. -/
example : Signature (str "FTIX01 LFPW\r\r\nGRIB7777") ∧ ¬ Signature (str "HDF5") := by
  refine ⟨⟨str "FTIX01 LFPW\r\r\n", str "7777", by decide, by decide⟩, ?_⟩
  rw [← signed_iff ⟨true, str "HDF5", true, true, none⟩]
  decide

/-- The result of `GRIBOpen` of a file with the signature, when the trace can be written. -/
theorem open_result (f : File) (h1 : f.isFile = true) (h2 : Signature f.header) (h3 : f.opened = true) (ht : f.traceable = true) (lib : Lib)
    (hm : f.message = some lib) (tolerant : Bool) : (gribOpen tolerant f).1 = init tolerant lib := by
  have hlen : ¬ f.header.length < 4 := by
    obtain ⟨a, b, e, -⟩ := h2
    rw [e]
    have : (str "GRIB").length = 4 := by decide
    simp only [List.length_append]
    omega
  rw [← signed_iff] at h2
  unfold gribOpen
  rw [if_neg (by simp [h1]), if_neg hlen, if_neg (by simp [h2]), if_neg (by simp [h3]), hm]
  dsimp only
  rw [if_pos ht]
  split
  · rename_i d hd
    exact hd.symm
  · rfl

/-- An image is given exactly for a file that can be opened, has the signature and a message with all that is needed; and then its size, time,
satellite, longitude, channel, name, unit and missing value are those of the message: where there are several keys for one thing, the first that the
message has.  Missing for C113: a trace that cannot be written (see `C78_violated_trace`), and numbers printed with no value (see
`C113_violated_unset`). -/
theorem C113_image_partial (f : File) (ht : f.traceable = true) (d : Dataset) :
    (gribOpen true f).1 = .ok (some d) ↔
      f.isFile = true ∧ Signature f.header ∧ f.opened = true ∧ ∃ lib, f.message = some lib ∧ Describes lib d := by
  constructor
  · intro h
    have hs : f.isFile = true ∧ Signature f.header := by
      by_contra hc
      have := (C113_signature true f).1 (by
        by_cases h1 : f.isFile = true
        · exact Or.inr (Or.inr fun h2 => hc ⟨h1, h2⟩)
        · exact Or.inl (by simpa using h1))
      rw [this] at h
      cases h
    have ho : f.opened = true := by
      by_contra hc
      unfold gribOpen at h
      split at h
      · cases h
      split at h
      · cases h
      split at h
      · cases h
      rw [if_pos (by simpa using hc)] at h
      cases h
    cases hm : f.message with
    | none =>
      unfold gribOpen at h
      split at h
      · cases h
      split at h
      · cases h
      split at h
      · cases h
      rw [if_neg (by simp [ho]), hm] at h
      cases h
    | some lib =>
      rw [open_result f hs.1 hs.2 ho ht lib hm, init_ok] at h
      exact ⟨hs.1, hs.2, ho, lib, rfl, h⟩
  · rintro ⟨h1, h2, h3, lib, hm, hd⟩
    rw [open_result f h1 h2 h3 ht lib hm, init_ok]
    exact hd

/-- Whatever the library says, opening gives an image or the null pointer, if the channel does not have to be found from a wave number that is
not of one.  Missing for C113: those wave numbers (see `C113_violated_exception` and `C113_violated_wave_number`). -/
theorem C113_total_partial (f : File) (ht : f.traceable = true)
    (hc : ∀ lib e v sat s, f.message = some lib →
      First lib.long ["satelliteNumber", "satelliteIdentifier", "indicatorOfTypeOfLevel"] sat → AsInt sat s → Lacks lib "channelNumber" → Lacks lib "level" → Has lib "scaleFactorOfCentralWaveNumber" e →
      Has lib "scaledValueOfCentralWaveNumber" v → ∃ c, Facts.channelFromWaveNumber s ((v : Rat) * (10 : Rat) ^ (-e)) = .ok c) :
    ∃ r, (gribOpen true f).1 = .ok r := by
  by_cases hs : f.isFile = true ∧ Signature f.header
  · by_cases ho : f.opened = true
    · cases hm : f.message with
      | none =>
        refine ⟨none, ?_⟩
        unfold gribOpen
        split
        · rfl
        split
        · rfl
        split
        · rfl
        rw [if_neg (by simp [ho]), hm, ht]
      | some lib =>
        rw [open_result f hs.1 hs.2 ho ht lib hm]
        exact init_quiet lib fun sat hs => channelOf_quiet lib _ fun e v => hc lib e v sat _ hm hs ((toInt_as ..).1 rfl)
    · refine ⟨none, ?_⟩
      unfold gribOpen
      split
      · rfl
      split
      · rfl
      split
      · rfl
      rw [if_pos (by simpa using ho)]
  · refine ⟨none, ?_⟩
    rw [(C113_signature true f).1 (by
      by_cases h1 : f.isFile = true
      · exact Or.inr (Or.inr fun h2 => hs ⟨h1, h2⟩)
      · exact Or.inl (by simpa using h1))]

/-- A message of edition 1: 3 columns and 2 lines of channel 9 of satellite 55. -/
def message1 : Lib where
  long := fun k =>
    match [("numberOfPointsAlongXAxis", (3 : Int)), ("numberOfPointsAlongYAxis", 2), ("editionNumber", 1), ("centuryOfReferenceTimeOfData", 21),
      ("yearOfCentury", 7), ("month", 6), ("day", 5), ("hour", 4), ("minute", 45), ("second", 0), ("indicatorOfTypeOfLevel", 55), ("level", 9)].lookup k with
    | some v => .found v
    | none => .notFound
  double := fun k => if k = "geography.lop" then .found 0 else .notFound
  setMissing := fun _ => true
  values := fun m n => if n < 6 then none else some [some 1, m, some 3, some 4, some 5, some 6]

/-- The same in edition 2, with a wave number. -/
def message2 (satellite wave : Int) : Lib where
  long := fun k =>
    match [("numberOfPointsAlongXAxis", (3 : Int)), ("numberOfPointsAlongYAxis", 2), ("editionNumber", 2), ("year", 2007), ("month", 6), ("day", 5),
      ("hour", 4), ("minute", 45), ("second", 0), ("satelliteNumber", satellite), ("scaleFactorOfCentralWaveNumber", 0),
      ("scaledValueOfCentralWaveNumber", wave)].lookup k with
    | some v => .found v
    | none => .notFound
  double := fun k => if k = "longitudeOfSubSatellitePointInDegrees" then .found (19 / 2) else .notFound
  setMissing := fun _ => true
  values := fun m n => if n < 6 then none else some [some 1, m, some 3, some 4, some 5, some 6]

/-- A file with a message. -/
def fileOf (lib : Lib) : File := ⟨true, str "GRIB", true, true, some lib⟩

theorem grib_signature (lib : Lib) : Signature (fileOf lib).header := ⟨[], [], rfl, by simp⟩

/-- Images are opened: of edition 1, and of edition 2. -/
example : (∃ d, (gribOpen true (fileOf message1)).1 = .ok (some d) ∧ d.sx = 3 ∧ d.channel = 9 ∧ d.spacecraft = 55 ∧ d.channelName = "IR_108") ∧
    ∃ d, (gribOpen true (fileOf (message2 57 92593))).1 = .ok (some d) ∧ d.sy = 2 ∧ d.channel = 9 ∧ d.spacecraft = 57 := by
  constructor
  · refine ⟨⟨3, 2, Datetime.formatStamp 2007 6 5 4 45 0, 55, "MSG1", 0, 9, "IR_108", "K", GribFile.defaultScaledMissing 9⟩, ?_, rfl, rfl, rfl, rfl⟩
    rw [C113_image_partial _ rfl]
    refine ⟨rfl, grib_signature _, rfl, message1, rfl, ?_⟩
    refine ⟨⟨3, by rfl, by decide⟩, ⟨2, by rfl, by decide⟩, ?_, ⟨55, ?_, by decide⟩, by decide, ?_, Or.inr (Or.inl ⟨by rfl, by rfl⟩),
      ⟨9, by decide, by decide, by decide, rfl⟩, rfl⟩
    · exact ⟨2007, 6, 5, 4, 45, 0, Or.inr ⟨by rfl, 21, 7, by rfl, by rfl, rfl⟩, by rfl, by rfl, by rfl, by rfl, by rfl, rfl⟩
    · exact Or.inr ⟨fun w h => (by cases h), Or.inr ⟨fun w h => (by cases h), Or.inl rfl⟩⟩
    · exact Or.inr ⟨fun w h => (by simp [message1] at h), Or.inl (by simp [message1])⟩
  · refine ⟨⟨3, 2, Datetime.formatStamp 2007 6 5 4 45 0, 57, "MSG3", 19 / 2, 9, "IR_108", "K", GribFile.defaultScaledMissing 9⟩, ?_, rfl, rfl, rfl⟩
    rw [C113_image_partial _ rfl]
    refine ⟨rfl, grib_signature _, rfl, message2 57 92593, rfl, ?_⟩
    refine ⟨⟨3, by rfl, by decide⟩, ⟨2, by rfl, by decide⟩, ?_, ⟨57, Or.inl rfl, by decide⟩, by decide, Or.inl (by simp [message2]),
      Or.inr (Or.inr ⟨by rfl, by rfl, 0, 92593, by rfl, by rfl, by decide +kernel⟩), ⟨9, by decide, by decide, by decide, rfl⟩, rfl⟩
    exact ⟨2007, 6, 5, 4, 45, 0, Or.inl ⟨by rfl, by rfl⟩, by rfl, by rfl, by rfl, by rfl, by rfl, rfl⟩

/-- The hypotheses of `C113_total_partial` hold for both. -/
example : (∀ lib e v sat s, (fileOf (message2 57 92593)).message = some lib →
      First lib.long ["satelliteNumber", "satelliteIdentifier", "indicatorOfTypeOfLevel"] sat → AsInt sat s → Lacks lib "channelNumber" →
      Lacks lib "level" → Has lib "scaleFactorOfCentralWaveNumber" e → Has lib "scaledValueOfCentralWaveNumber" v →
      ∃ c, Facts.channelFromWaveNumber s ((v : Rat) * (10 : Rat) ^ (-e)) = .ok c) ∧
    ¬ Lacks message1 "level" := by
  refine ⟨fun lib e v sat s hm hs ha h1 h2 he hv => ?_, fun h => (by cases h)⟩
  injection hm with hm
  subst hm
  have e1 : (0 : Int) = e := by injection he
  have e2 : (92593 : Int) = v := by injection hv
  have e3 : (57 : Int) = sat := by
    rcases hs with hs | ⟨hs, -⟩
    · injection hs
    · exact absurd rfl (hs 57)
  subst e1 e2 e3
  have : s = 57 := ((toInt_as 57 s).2 ha).symm
  subst this
  exact ⟨9, by decide +kernel⟩

/-! ### Handles and files -/

/-- Whatever a program does with objects: everything that was opened is in one place only: released, given to the caller, lost, or owned by an
object; nothing is released twice, nor while an object owns it. -/
theorem C113_objects (ops : List Op) (s : State) (h : runOps nothing ops = .ok s) :
    (s.released ++ s.given ++ s.lost ++ held s).Perm (List.range s.made) ∧ s.released.Nodup ∧
    (∀ r ∈ s.released, r ∉ held s ∧ r ∉ s.given) := by
  have hi := runOps_inv ops nothing_inv h
  have hp : (s.released ++ s.given ++ s.lost ++ held s).Perm (List.range s.made) := by
    rw [List.perm_iff_count]
    intro n
    have := hi n
    simp only [List.count_append, held_eq]
    omega
  have hn : (s.released ++ s.given ++ s.lost ++ held s).Nodup := hp.nodup_iff.2 List.nodup_range
  refine ⟨hp, ?_, fun r hr => ⟨fun hh => ?_, fun hg => ?_⟩⟩
  · exact (List.nodup_append.1 (List.nodup_append.1 (List.nodup_append.1 hn).1).1).1
  · exact (List.nodup_append.1 hn).2.2 r (by simp [hr]) r hh rfl
  · exact (List.nodup_append.1 (List.nodup_append.1 (List.nodup_append.1 hn).1).1).2.2 r hr r hg rfl

/-- When all the objects are gone, everything that was opened has been released once, or given to the caller, if no object was asked for a
second message.  Missing for C113: objects that are asked again (see `C113_violated_leak`). -/
theorem C113_objects_released_partial (ops : List Op) (s : State) (h : runOps nothing ops = .ok s) (he : AlwaysEmpty nothing ops)
    (hg : AllGone s) : (s.released ++ s.given).Perm (List.range s.made) := by
  have hp := (C113_objects ops s h).1
  have h1 : s.lost = [] := runOps_lost ops he h
  have h2 : held s = [] := by rw [held_eq]; exact held_gone hg
  rw [h1, h2] at hp
  simpa using hp

/-- An object is made, reads a file, is moved and assigned. -/
example : ∃ s, runOps nothing [.construct true, .file 0 true true, .move 0, .construct true, .assign 2 1, .destroy 2, .destroy 1, .destroy 0] = .ok s ∧
    AllGone s ∧ s.made = 4 ∧ s.released = [3, 0, 2, 1] :=
  ⟨_, rfl, by intro x hx; simpa [nothing] using hx, rfl, rfl⟩

/-- `GRIBOpen` that gives no image leaves nothing open, also when it throws; one that gives an image leaves open what the image owns, and closing
the image releases that.  Each handle and file once. -/
theorem C113_released (tolerant : Bool) (f : File) (hu : (gribOpen tolerant f).1 ≠ .ub) :
    ((∀ d, (gribOpen tolerant f).1 ≠ .ok (some d)) → ∃ s, runOps nothing (gribOpen tolerant f).2 = .ok s ∧ AllGone s ∧
      s.released.Perm (List.range s.made)) ∧
    (∀ d, (gribOpen tolerant f).1 = .ok (some d) → ∃ s s', runOps nothing (gribOpen tolerant f).2 = .ok s ∧ s.released = [] ∧
      (held s).Perm (List.range s.made) ∧ s.made = 3 ∧
      runOps s close = .ok s' ∧ AllGone s' ∧ s'.released.Perm (List.range s'.made)) := by
  have nil : ∃ s, runOps nothing [] = .ok s ∧ AllGone s ∧ s.released.Perm (List.range s.made) :=
    ⟨nothing, rfl, fun x hx => (by cases hx), List.Perm.refl _⟩
  unfold gribOpen at hu ⊢
  split
  · exact ⟨fun _ => nil, fun d h => (by cases h)⟩
  split
  · exact ⟨fun _ => nil, fun d h => (by cases h)⟩
  split
  · exact ⟨fun _ => nil, fun d h => (by cases h)⟩
  rename_i h1 h2 h3
  rw [if_neg h1, if_neg h2, if_neg h3] at hu
  split
  · refine ⟨fun _ => ?_, fun d h => (by cases h)⟩
    cases f.traceable
    · exact ⟨_, rfl, by intro x hx; simpa [nothing] using hx, by decide⟩
    · exact ⟨_, rfl, by intro x hx; simpa [nothing] using hx, by decide⟩
  rename_i h4
  rw [if_neg h4] at hu
  cases hm : f.message with
  | none =>
    rw [hm] at hu
    dsimp only at hu ⊢
    cases ht : f.traceable with
    | false => rw [ht] at hu; exact absurd rfl hu
    | true =>
      refine ⟨fun _ => ?_, fun d h => (by cases h)⟩
      exact ⟨_, rfl, by intro x hx; simpa [nothing] using hx, by decide⟩
  | some lib =>
    rw [hm] at hu
    dsimp only at hu ⊢
    cases ht : f.traceable with
    | false => rw [ht] at hu; exact absurd rfl hu
    | true =>
      rw [ht] at hu
      simp only [if_true] at hu ⊢
      have gone : ∃ s, runOps nothing ([.construct true, .file 0 true true, .move 0] ++ [.destroy 1, .destroy 0]) = .ok s ∧ AllGone s ∧
          s.released.Perm (List.range s.made) := ⟨_, rfl, by intro x hx; simpa [nothing] using hx, by decide⟩
      split
      · rename_i d hd
        refine ⟨fun h => absurd rfl (h d), fun d' _ => ?_⟩
        exact ⟨_, _, rfl, rfl, by decide, rfl, rfl, by intro x hx; simpa [nothing] using hx, by decide⟩
      · rename_i r hr
        exact ⟨fun _ => gone, fun d' h => absurd h (hr d')⟩

/-! ### Using an image -/

/-- The pixels are the values that the library gives for the whole image; blocks other than the only one and messages with fewer values are
refused.  Missing for C113: messages whose values the library cannot give, or that have more (see `C113_violated_values`), and images of 2^31 pixels
(see `C113_violated_size`). -/
theorem C113_pixels_partial (lib : Lib) (d : Dataset) (x y : Int) (n : Nat) (hn : d.sx * d.sy = n) (hlt : n < 2 ^ 31) (v : List (Option Rat)) (hv : lib.values d.nodata n = some v) :
    (x = 0 ∧ y = 0 ∧ v.length = n → readBlock lib d x y = .ok (.pixels v)) ∧
    (¬ (x = 0 ∧ y = 0 ∧ v.length = n) → readBlock lib d x y = .ok .failure) := by
  have hr : ((d.sx * d.sy) % 2 ^ 64).toNat = n := by rw [hn]; omega
  have hb : ¬ (d.sx * d.sy < -2 ^ 31 ∨ 2 ^ 31 ≤ d.sx * d.sy) := by rw [hn]; omega
  constructor
  · rintro ⟨rfl, rfl, hl⟩
    unfold readBlock
    rw [if_neg (by simp), if_neg hb]
    dsimp only
    rw [hr, hv]
    dsimp only
    rw [if_neg (by simp [hl])]
  · intro h
    unfold readBlock
    by_cases hxy : x ≠ 0 ∨ y ≠ 0
    · rw [if_pos hxy]
    · rw [if_neg hxy, if_neg hb]
      dsimp only
      rw [hr, hv]
      dsimp only
      rw [if_pos]
      intro hl
      apply h
      refine ⟨?_, ?_, hl⟩
      · by_contra hx; exact hxy (Or.inl hx)
      · by_contra hy; exact hxy (Or.inr hy)

/-- Six pixels. -/
example (d : Dataset) (hx : d.sx = 3) (hy : d.sy = 2) :
    readBlock message1 d 0 0 = .ok (.pixels [some 1, d.nodata, some 3, some 4, some 5, some 6]) ∧ readBlock message1 d 0 1 = .ok .failure := by
  have h := C113_pixels_partial message1 d
  exact ⟨(h 0 0 6 (by rw [hx, hy]; rfl) (by decide) _ rfl).1 ⟨rfl, rfl, rfl⟩, (h 0 1 6 (by rw [hx, hy]; rfl) (by decide) _ rfl).2 (by simp)⟩

/-- The geotransform is the one of the grid of the message: the first point is as many pixels from the point below the satellite as the message
says, and pixels are as large as it says (modulo 2^32; zero is not a size).  Without one of the keys there is none. -/
theorem C113_geotransform_partial (lib : Lib) (g : Georef.Gt) :
    geoTransform true lib = .ok (some g) ↔
      ∃ xp yp x0 y0 dx dy idx idy, First lib.long ["xCoordinateOfSubSatellitePoint", "XpInGridLengths"] xp ∧
        First lib.long ["yCoordinateOfSubSatellitePoint", "YpInGridLengths"] yp ∧ First lib.long ["Xo", "geography.xo"] x0 ∧
        First lib.long ["Yo", "geography.yo"] y0 ∧ Has lib "geography.dx" dx ∧ Has lib "geography.dy" dy ∧
        AsInt dx idx ∧ AsInt dy idy ∧ PixelSize.pixelHSizeFromSeviriDX idx = .ok g.dx ∧ PixelSize.pixelVSizeFromSeviriDY idy = .ok (-g.dy) ∧
        g.x0 = (x0 - xp) * g.dx ∧ g.y0 = (y0 - yp) * g.dy ∧ g.rx = 0 ∧ g.ry = 0 := by
  unfold geoTransform
  simp only [andThen_ok_iff, getLong_ok, getLongOneOf_ok]
  constructor
  · rintro ⟨xp, hxp, yp, hyp, x0, hx0, y0, hy0, dx, hdx, dy, hdy, h⟩
    obtain ⟨psx, h1, h⟩ := Outcome.of_bind_ok h
    obtain ⟨psy, h2, h⟩ := Outcome.of_bind_ok h
    injection h with h
    injection h with h
    subst h
    refine ⟨xp, yp, x0, y0, dx, dy, _, _, hxp, hyp, hx0, hy0, hdx, hdy, (toInt_as _ _).1 rfl, (toInt_as _ _).1 rfl, h1, by rw [h2, neg_neg], ?_, ?_, rfl, rfl⟩
    · push_cast
      ring
    · push_cast
      ring
  · rintro ⟨xp, yp, x0, y0, dx, dy, idx, idy, hxp, hyp, hx0, hy0, hdx, hdy, i1, i2, h1, h2, e1, e2, e3, e4⟩
    rw [← toInt_as] at i1 i2
    subst i1 i2
    refine ⟨xp, hxp, yp, hyp, x0, hx0, y0, hy0, dx, hdx, dy, hdy, ?_⟩
    rw [h1]
    show Outcome.bind (PixelSize.pixelVSizeFromSeviriDY (GribHandle.toInt dy)) _ = _
    rw [h2]
    show Outcome.ok (some _) = _
    obtain ⟨gx0, gy0, gdx, gdy, grx, gry⟩ := g
    simp only at e1 e2 e3 e4
    subst e3 e4
    congr 2
    rw [e1, e2]
    congr 1
    · push_cast
      ring
    · push_cast
      ring
    · exact neg_neg _

/-! ### What goes wrong -/

/-- Discrepancy: a failed look up prints a variable that was never given a value, which the standard says is undefined.  It happens for every
message without the key `satelliteNumber`, as are all those of edition 1 that this driver writes, however complete they are. -/
theorem C113_violated_unset (f : File) (h1 : f.isFile = true) (h2 : Signature f.header) (h3 : f.opened = true) (lib : Lib)
    (hm : f.message = some lib) (d : Dataset) (hd : Describes lib d) (hs : ∀ v, ¬ Has lib "satelliteNumber" v) :
    (gribOpen false f).1 = .ub := by
  have hlen : ¬ f.header.length < 4 := by
    obtain ⟨a, b, e, -⟩ := h2
    rw [e]
    have : (str "GRIB").length = 4 := by decide
    simp only [List.length_append]
    omega
  have key : init false lib = .ub := by
    obtain ⟨sx, hx, -⟩ := hd.width
    obtain ⟨sy, hy, -⟩ := hd.height
    obtain ⟨year, mo, da, hh, mi, se, hyr, hmo, hda, hhh, hmi, hse, ht⟩ := hd.time
    have hft : formatTime false lib = .ok (some d.datetime) := by
      unfold formatTime
      rw [andThen_ok_iff]
      rcases hyr with ⟨he, hy⟩ | ⟨he, c, y, hc, hy, rfl⟩
      · refine ⟨2, (getLong_ok ..).2 he, ?_⟩
        rw [if_neg (by decide), if_pos rfl]
        simp only [andThen_ok_iff, getLong_ok]
        exact ⟨_, hy, _, hmo, _, hda, _, hhh, _, hmi, _, hse, by rw [ht]⟩
      · refine ⟨1, (getLong_ok ..).2 he, ?_⟩
        rw [if_pos rfl]
        simp only [andThen_ok_iff, getLong_ok]
        exact ⟨_, hc, _, hy, _, hmo, _, hda, _, hhh, _, hmi, _, hse, by rw [ht]⟩
    have hone : getLongOneOf false lib ["satelliteNumber", "satelliteIdentifier", "indicatorOfTypeOfLevel"] = .ub := by
      unfold getLongOneOf printed
      cases hk : lib.long "satelliteNumber" with
      | found v => exact absurd hk (hs v)
      | notFound => rfl
      | error => rfl
    unfold init
    rw [(getLong_ok ..).2 hx, (getLong_ok ..).2 hy, hft, hone]
    rfl
  rw [← signed_iff] at h2
  unfold gribOpen
  rw [if_neg (by simp [h1]), if_neg hlen, if_neg (by simp [h2]), if_neg (by simp [h3]), hm]
  dsimp only
  have : (if f.traceable = true then init false lib else .ub) = .ub := by
    split
    · exact key
    · rfl
  rw [this]

/-- The message of edition 1 above is one. -/
example : ∀ v, ¬ Has message1 "satelliteNumber" v := fun v h => by cases h

/-- Discrepancy: a message that has the wave number of a channel but whose satellite is not one with SEVIRI makes the opening throw an exception
that it does not catch, instead of refusing the file. -/
theorem C113_violated_exception (satellite wave : Int) (hs : toInt satellite ∉ SatSpec.seviri) :
    (gribOpen true (fileOf (message2 satellite wave))).1.Throws := by
  rw [open_result _ rfl (grib_signature _) rfl rfl _ rfl]
  have hw : ∃ m, Facts.channelFromWaveNumber (toInt satellite) ((wave : Rat) * (10 : Rat) ^ (-(0 : Int))) = .throws m := by
    have hno : ¬ (toInt satellite = 55 ∨ toInt satellite = 56 ∨ toInt satellite = 57 ∨ toInt satellite = 70) := by
      intro h
      apply hs
      simpa [SatSpec.seviri] using h
    unfold Facts.channelFromWaveNumber Facts.channelFromWavelength
    rw [if_neg (fun h => hno h.2), if_neg hno]
    exact ⟨_, rfl⟩
  obtain ⟨m, hm⟩ := hw
  have hc : channelOf true (message2 satellite wave) (toInt satellite) = .throws m := by
    show Outcome.bind (Facts.channelFromWaveNumber (toInt satellite) ((wave : Rat) * (10 : Rat) ^ (-(0 : Int)))) _ = _
    rw [hm]
    rfl
  have hft : formatTime true (message2 satellite wave) = .ok (some (Datetime.formatStamp 2007 6 5 4 45 0)) :=
    (formatTime_ok ..).2 ⟨2007, 6, 5, 4, 45, 0, Or.inl ⟨by rfl, by rfl⟩, by rfl, by rfl, by rfl, by rfl, by rfl, rfl⟩
  have hd : getDoubleOneOf true (message2 satellite wave) ["longitudeOfSubSatellitePointInDegrees", "geography.lop"] = .ok (some (19 / 2)) :=
    (getDoubleOneOf_ok ..).2 (Or.inl (by simp [message2]))
  have : init true (message2 satellite wave) = .throws m := by
    unfold init
    rw [hft, hd]
    show Get.andThen (channelOf true (message2 satellite wave) (toInt satellite)) _ = _
    rw [hc]
    rfl
  rw [this]
  trivial

/-- GOES 15. -/
example : toInt 259 ∉ SatSpec.seviri := by decide

/-- Discrepancy: a message with wave number zero makes the conversion of an infinite number to an integer. -/
theorem C113_violated_wave_number (satellite : Int) (hs : toInt satellite ∈ SatSpec.seviri) :
    (gribOpen true (fileOf (message2 satellite 0))).1 = .ub := by
  rw [open_result _ rfl (grib_signature _) rfl rfl _ rfl]
  have hw : Facts.channelFromWaveNumber (toInt satellite) (((0 : Int) : Rat) * (10 : Rat) ^ (-(0 : Int))) = .ub := by
    unfold Facts.channelFromWaveNumber
    rw [if_pos]
    refine ⟨by simp, ?_⟩
    simpa [SatSpec.seviri] using hs
  have hc : channelOf true (message2 satellite 0) (toInt satellite) = .ub := by
    show Outcome.bind (Facts.channelFromWaveNumber (toInt satellite) (((0 : Int) : Rat) * (10 : Rat) ^ (-(0 : Int)))) _ = _
    rw [hw]
    rfl
  have hft : formatTime true (message2 satellite 0) = .ok (some (Datetime.formatStamp 2007 6 5 4 45 0)) :=
    (formatTime_ok ..).2 ⟨2007, 6, 5, 4, 45, 0, Or.inl ⟨by rfl, by rfl⟩, by rfl, by rfl, by rfl, by rfl, by rfl, rfl⟩
  have hd : getDoubleOneOf true (message2 satellite 0) ["longitudeOfSubSatellitePointInDegrees", "geography.lop"] = .ok (some (19 / 2)) :=
    (getDoubleOneOf_ok ..).2 (Or.inl (by simp [message2]))
  unfold init
  rw [hft, hd]
  show Get.andThen (channelOf true (message2 satellite 0) (toInt satellite)) _ = _
  rw [hc]
  rfl

example : toInt 57 ∈ SatSpec.seviri := by decide

/-- Discrepancy: when the library cannot give the values, as when the message has more of them than points, reading the pixels throws an exception
that nobody catches. -/
theorem C113_violated_values (lib : Lib) (d : Dataset) (n : Nat) (hn : d.sx * d.sy = n) (hlt : n < 2 ^ 31) (hv : lib.values d.nodata n = none) :
    readBlock lib d 0 0 = .ok .griberror := by
  have hr : ((d.sx * d.sy) % 2 ^ 64).toNat = n := by rw [hn]; omega
  unfold readBlock
  rw [if_neg (by simp), if_neg (by rw [hn]; omega)]
  dsimp only
  rw [hr, hv]

/-- Four points for six values. -/
example (m : Option Rat) : message1.values m 4 = none := rfl

/-- Discrepancy: sizes of 2^31 points and more are not refused: an image with 2^32 - 1 columns has size -1, and one with 2^16 columns and lines
cannot be read: the number of its pixels overflows. -/
theorem C113_violated_size (lib : Lib) (d : Dataset) (hd : Describes lib d) :
    (Has lib "numberOfPointsAlongXAxis" (2 ^ 32 - 1) → d.sx = -1) ∧
    (Has lib "numberOfPointsAlongXAxis" (2 ^ 16) → Has lib "numberOfPointsAlongYAxis" (2 ^ 16) → readBlock lib d 0 0 = .ub) := by
  obtain ⟨sx, hx, ax⟩ := hd.width
  obtain ⟨sy, hy, ay⟩ := hd.height
  constructor
  · intro h
    have : Answer.found sx = Answer.found (2 ^ 32 - 1) := hx.symm.trans h
    injection this with this
    subst this
    obtain ⟨a1, a2, a3⟩ := ax
    omega
  · intro h h'
    have e : Answer.found sx = Answer.found (2 ^ 16) := hx.symm.trans h
    have e' : Answer.found sy = Answer.found (2 ^ 16) := hy.symm.trans h'
    injection e with e
    injection e' with e'
    subst e e'
    have e1 : d.sx = 65536 := by obtain ⟨a1, a2, a3⟩ := ax; omega
    have e2 : d.sy = 65536 := by obtain ⟨a1, a2, a3⟩ := ay; omega
    unfold readBlock
    rw [if_neg (by simp), if_pos (by rw [e1, e2]; decide)]

/-- Such a message is accepted. -/
example : ∃ lib d, Describes lib d ∧ Has lib "numberOfPointsAlongXAxis" (2 ^ 16) ∧ Has lib "numberOfPointsAlongYAxis" (2 ^ 16) := by
  refine ⟨{ message2 57 92593 with long := (fun k => if k = "numberOfPointsAlongXAxis" ∨ k = "numberOfPointsAlongYAxis" then .found (2 ^ 16) else (message2 57 92593).long k) },
    ⟨65536, 65536, Datetime.formatStamp 2007 6 5 4 45 0, 57, "MSG3", 19 / 2, 9, "IR_108", "K", GribFile.defaultScaledMissing 9⟩, ?_, by rfl, by rfl⟩
  refine ⟨⟨2 ^ 16, by rfl, by decide⟩, ⟨2 ^ 16, by rfl, by decide⟩, ?_, ⟨57, Or.inl rfl, by decide⟩, by decide, Or.inl (by simp [message2]),
      Or.inr (Or.inr ⟨by rfl, by rfl, 0, 92593, by rfl, by rfl, by decide +kernel⟩), ⟨9, by decide, by decide, by decide, rfl⟩, rfl⟩
  exact ⟨2007, 6, 5, 4, 45, 0, Or.inl ⟨by rfl, by rfl⟩, by rfl, by rfl, by rfl, by rfl, by rfl, rfl⟩

/-- Discrepancy: a file that has a zero byte before GRIB is not opened, although the library would find the message: the search stops at the zero. -/
theorem C113_violated_signature (tolerant : Bool) (lib : Lib) (a b : Bytes) (h : ∀ u v, a ++ 0 :: b = u ++ str "GRIB" ++ v → (0 : UInt8) ∈ u) :
    gribOpen tolerant ⟨true, a ++ 0 :: b, true, true, some lib⟩ = (.ok none, []) :=
  (C113_signature tolerant _).1 (Or.inr (Or.inr fun ⟨u, v, e, hu⟩ => hu (h u v e)))

/-- A zero and the message. -/
example : gribOpen true ⟨true, 0 :: str "GRIB", true, true, some message1⟩ = (.ok none, []) := by
  refine (C113_signature true _).1 (Or.inr (Or.inr ?_))
  rw [← signed_iff ⟨true, 0 :: str "GRIB", true, true, some message1⟩]
  decide

/-- Discrepancy: an object that is asked for a second message never releases the first: its handle is lost, and its file too when it comes from
one. -/
theorem C113_violated_leak (ok : Bool) :
    (∃ s, runOps nothing [.construct true, .samples 0 true, .samples 0 ok, .destroy 0] = .ok s ∧ AllGone s ∧ s.lost = [1] ∧ 1 ∉ s.released) ∧
    ∃ s, runOps nothing [.construct true, .file 0 true true, .file 0 true ok, .destroy 0] = .ok s ∧ AllGone s ∧ s.lost = [2, 1] ∧
      1 ∉ s.released ∧ 2 ∉ s.released := by
  constructor
  · cases ok
    · exact ⟨_, rfl, by intro x hx; simpa [nothing] using hx, rfl, by decide⟩
    · exact ⟨_, rfl, by intro x hx; simpa [nothing] using hx, rfl, by decide⟩
  · cases ok
    · exact ⟨_, rfl, by intro x hx; simpa [nothing] using hx, rfl, by decide, by decide⟩
    · exact ⟨_, rfl, by intro x hx; simpa [nothing] using hx, rfl, by decide, by decide⟩

/-- Discrepancy: an object that was moved cannot be used again for another message: the file of its trace went with it, and a null pointer is
written to. -/
theorem C113_violated_moved (s s' : State) (o : Nat) (hm : step s (.move o) = .ok s') (ok : Bool) :
    step s' (.samples o ok) = .ub ∧ step s' (.file o true ok) = .ub ∧ step s' (.release o) = .ub := by
  obtain ⟨x, hx, hm⟩ := Outcome.of_bind_ok hm
  injection hm with hm
  subst hm
  have hlt : o < s.objs.length := by
    have := get_ok hx
    by_contra hc
    rw [List.getElem?_eq_none (by omega)] at this
    cases this
  have hg : State.get { s with objs := s.objs.set o (some ⟨none, none, none⟩) ++ [some x] } o = .ok ⟨none, none, none⟩ := by
    apply get_of
    show (s.objs.set o (some ⟨none, none, none⟩) ++ [some x])[o]? = _
    rw [List.getElem?_append_left (by simpa using hlt), List.getElem?_set]
    simp [hlt]
  refine ⟨?_, ?_, ?_⟩
  · unfold step
    dsimp only
    rw [hg]
    rfl
  · unfold step
    dsimp only
    rw [hg]
    rfl
  · unfold step
    dsimp only
    rw [hg]
    rfl

/-- One that was moved. -/
example : ∃ s s', runOps nothing [.construct true, .file 0 true true] = .ok s ∧ step s (.move 0) = .ok s' := ⟨_, _, rfl, rfl⟩

end Msat.Props
