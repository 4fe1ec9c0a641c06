import Verif.Props.C73
import Verif.Props.C74
import Verif.Props.C77
import Verif.Props.C98
import Verif.Model.HriTools
import Verif.Spec.HriTools

/-
C99 HRI2NetCDF.
-/
namespace Msat.Props
open Msat Hri HriSpec
open Msat.HriToolsSpec (Received Identifies longitude formatName bandName unit step shortStamp fileName signed)
open Msat.HriTools (World Tm tmOf)
open Msat.DatetimeSpec (stamp since2000 Fits)

/-! ### Reading -/

/-- What is known of a file that has been read. -/
structure Read99 (w : World) (file : Bytes) (a : Announced) (h : Header) (pix : Nat → Nat → Bytes) (F : File) (imgs : List Image) : Prop where
  reads : readfrom 4 false false w.utcoff (List.replicate 2500 0) file = .ok F
  ident : readIdent false w.utcoff h.ident = .ok F.ident
  interp : readInterp 4 false h.interp = .ok F.interp
  announces : announced F.label = some a
  sent : disseminated a = true
  stored : F.images = some imgs
  shows : Shows a.family (bands a) pix imgs
  sized : h.Sized a.family

theorem announced_of {l : Bytes} {lab : Label} (hl : l.length = 24) (h : readLabel false l = .ok lab) : announced lab = HriSpec.announces l := by
  obtain ⟨lab', h', -, e⟩ := readLabel_bytes l [] hl
  rw [h] at h'
  rw [Outcome.ok.inj h', e]

theorem read99 (w : World) {file : Bytes} {a : Announced} {h : Header} {pix : Nat → Nat → Bytes} (r : Received file a h pix) :
    ∃ F imgs, Read99 w file a h pix F imgs := by
  obtain ⟨sent, sized, label, known, ss, rest, hss, hpix, rfl⟩ := r
  obtain ⟨F, imgs, e, h1, -, h3, h4, -, h6, hlen, hshow⟩ :=
    C73_images_partial a sent h sized label known pix ss hss hpix w.utcoff (List.replicate 2500 0) rest
  refine ⟨F, imgs, e, h3, h4, by rw [announced_of sized.label h1, label], sent, h6, ⟨hlen, fun k b hb => ?_⟩, sized⟩
  obtain ⟨img, i1, i2, i3⟩ := hshow k b hb
  rw [bands_dims a sent b (List.mem_of_getElem? hb)] at i2
  injection i2 with i2
  injection i2 with n1 n2
  exact ⟨img, i1, n2.symm, n1.symm, fun j hj => (i3 j hj).1⟩

theorem Read99.geo {w : World} {file : Bytes} {a : Announced} {h : Header} {pix : Nat → Nat → Bytes} {F : File} {imgs : List Image}
    (r : Read99 w file a h pix F imgs) : ∃ g, geolocationOf (code a) = .ok g ∧ (g.coff, g.loff) = centre a := by
  have hc := C35_code F.label
  rw [r.announces] at hc
  exact C35_centre F.label a r.announces (code a) hc r.sent

/-- The program after the file has been read. -/
theorem main99 {w : World} {file : Bytes} {a : Announced} {h : Header} {pix : Nat → Nat → Bytes} {F : File} {imgs : List Image}
    (r : Read99 w file a h pix F imgs) (hw : w.input = some file) (hl : w.longSize = 4) {arg : Bytes} (ha : arg ≠ str "-V")
    (rest : List Bytes) {g : Geolocation} (hg : geolocationOf (code a) = .ok g) :
    HriTools.main w (arg :: rest) =
      HriTools.images w F (code a) g 0 (tmOf F.ident) (((bands a).map fun b => (a.family, b)).zip imgs) := by
  have hc := C35_code F.label
  rw [r.announces] at hc
  have hi := ((C35_images F.label a r.announces (code a) hc).1 r.sent).1
  unfold HriTools.main
  dsimp only
  rw [if_neg ha, hw, hl]
  dsimp only
  rw [r.reads]
  dsimp only
  unfold HriTools.export_
  rw [r.stored]
  dsimp only
  rw [hc]
  dsimp only
  rw [hi, hg]

/-! ### The loop -/

/-- The `struct tm` when image `k` is exported. -/
def tmAt (w : World) (t : Tm) : Nat → Tm
  | 0 => t
  | k + 1 => tmAt w (w.mktime t).2 k

theorem tmAt_fixed (w : World) (t : Tm) (h : (w.mktime t).2 = t) (k : Nat) : tmAt w t k = t := by
  induction k with
  | zero => rfl
  | succ k ih => rw [tmAt, h, ih]

/-- What is in a file that was written. -/
theorem images_of (w : World) (F : File) (c : List Char) (g : Geolocation) (l : List ((Format × Band) × Image)) :
    ∀ (k : Nat) (t : Tm) (m : Nat) (name : Bytes) (f : HriTools.NcImage),
      (HriTools.images w F c g k t l).files[m]? = some (name, f) → ∃ fb img, l[m]? = some (fb, img) ∧
        HriTools.sprintf 1024 (HriTools.ncName F (tmAt w t m) (HriTools.nameOf fb.1 fb.2)) = .ok name ∧
        HriTools.content w F c g (tmAt w t m) (k + m) fb img = .ok f := by
  induction l with
  | nil => intro k t m name f h; simp [HriTools.images] at h
  | cons x l ih =>
    obtain ⟨fb, img⟩ := x
    intro k t m name f h
    unfold HriTools.images at h
    cases hs : HriTools.sprintf 1024 (HriTools.ncName F t (HriTools.nameOf fb.1 fb.2)) with
    | ok n =>
      rw [hs] at h
      dsimp only at h
      by_cases hn : w.creates n = false
      · rw [if_pos hn] at h; simp at h
      · rw [if_neg hn] at h
        cases hk : HriTools.content w F c g t k fb img with
        | ok v =>
          rw [hk] at h
          dsimp only at h
          cases m with
          | zero =>
            rw [List.getElem?_cons_zero] at h
            have := Option.some.inj h
            have h1 : n = name := congrArg Prod.fst this
            have h2 : v = f := congrArg Prod.snd this
            subst h1; subst h2
            exact ⟨fb, img, rfl, hs, hk⟩
          | succ m =>
            rw [List.getElem?_cons_succ] at h
            obtain ⟨fb', img', e1, e2, e3⟩ := ih _ _ _ _ _ h
            refine ⟨fb', img', e1, e2, ?_⟩
            rw [show k + (m + 1) = k + 1 + m by omega]
            exact e3
        | _ => rw [hk] at h; simp at h
    | _ => rw [hs] at h; simp at h

/-- When all the images are exported. -/
theorem images_all (w : World) (F : File) (c : List Char) (g : Geolocation) (l : List ((Format × Band) × Image)) :
    ∀ (k : Nat) (t : Tm), (∀ (m : Nat) (fb : Format × Band) (img : Image), l[m]? = some (fb, img) → ∃ name f,
        HriTools.sprintf 1024 (HriTools.ncName F (tmAt w t m) (HriTools.nameOf fb.1 fb.2)) = .ok name ∧ w.creates name = true ∧
        HriTools.content w F c g (tmAt w t m) (k + m) fb img = .ok f) →
      (HriTools.images w F c g k t l).status = .ok 0 ∧ (HriTools.images w F c g k t l).files.length = l.length := by
  induction l with
  | nil => intro k t _; exact ⟨rfl, rfl⟩
  | cons x l ih =>
    obtain ⟨fb, img⟩ := x
    intro k t h
    obtain ⟨n, f, h1, h2, h3⟩ := h 0 fb img rfl
    obtain ⟨i1, i2⟩ := ih (k + 1) (w.mktime t).2 (fun m fb img hm => by
      obtain ⟨n, f, h1, h2, h3⟩ := h (m + 1) fb img hm
      exact ⟨n, f, h1, h2, by rw [show k + 1 + m = k + (m + 1) by omega]; exact h3⟩)
    unfold HriTools.images
    rw [show HriTools.sprintf 1024 (HriTools.ncName F t (HriTools.nameOf fb.1 fb.2)) = .ok n from h1]
    dsimp only
    rw [if_neg (by rw [h2]; decide), show HriTools.content w F c g t k fb img = .ok f from h3]
    dsimp only
    exact ⟨i1, by rw [List.length_cons, i2, List.length_cons]⟩

/-! ### Texts -/

theorem decimal_log (n : Nat) : Text.decimal n = TextSpec.digits (Nat.log 10 n + 1) n := by
  induction n using Nat.strongRecOn with
  | _ n ih =>
    rw [Text.decimal]
    by_cases h : n < 10
    · rw [if_pos h, Nat.log_of_lt h]
      show _ = [] ++ [UInt8.ofNat (48 + n % 10)]
      rw [Nat.mod_eq_of_lt h]
      rfl
    · rw [if_neg h, ih (n / 10) (by omega), Nat.log_of_one_lt_of_le (n := n) (by omega) (by omega)]
      rfl

theorem blank4_year {y : Nat} (h : 1000 ≤ y ∧ y ≤ 9999) : HriTools.blank4 (y : Int) = TextSpec.digits 4 y := by
  have hl : Nat.log 10 y = 3 := (Nat.log_eq_iff (by omega)).2 ⟨by omega, by omega⟩
  unfold HriTools.blank4
  dsimp only
  rw [if_neg (by omega), Int.natAbs_natCast, decimal_log, hl, Text.digits_length]
  rfl

theorem fixed1_text (v : Int) : HriTools.fixed1 v = HriToolsSpec.numberText v ++ str ".0" := by
  unfold HriTools.fixed1 HriToolsSpec.numberText
  rw [decimal_log]
  split <;> rfl

theorem twos_range (s : Bytes) (n : Nat) : -32768 ≤ twos 16 (word s n) ∧ twos 16 (word s n) ≤ 32767 := by
  have h : word s n < 65536 := by
    unfold word
    have := (s.getD n 0).toNat_lt
    have := (s.getD (n + 1) 0).toNat_lt
    omega
  unfold twos
  split <;> omega

theorem numberText_length {v : Int} (h : -32768 ≤ v ∧ v ≤ 32767) : (HriToolsSpec.numberText v).length ≤ 6 := by
  have hl : Nat.log 10 v.natAbs ≤ 4 := by
    have : Nat.log 10 v.natAbs < 5 := Nat.log_lt_of_lt_pow' (by omega) (by omega)
    omega
  unfold HriToolsSpec.numberText
  rw [List.length_append, Text.digits_length]
  split <;> simp only [List.length_cons, List.length_nil] <;> omega

theorem timeText99 {y mo d h mi : Nat} (dst : Int) (f : Fits y mo d h mi 0) :
    HriTools.timeText ⟨(y : Int) - 1900, (mo : Int) - 1, d, h, mi, dst⟩ = stamp y mo d h mi 0 ++ str " UTC" := by
  unfold HriTools.timeText
  dsimp only
  rw [← time_text f, show (y : Int) - 1900 + 1900 = y by omega, show (mo : Int) - 1 + 1 = mo by omega,
    show Text.fmt0 2 ((0 : Nat) : Int) = str "00" by decide +kernel]
  simp only [List.append_assoc]
  rfl

theorem satellite_length {b0 b1 : Nat} {name : String} (h : HriSpec.satelliteName b0 b1 = some name) : (str name).length ≤ 11 := by
  unfold HriSpec.satelliteName at h
  split at h
  · split at h
    · rw [← Option.some.inj h]; decide
    · have := List.mem_of_getElem? h
      revert this
      clear h
      have : ∀ n ∈ ["METEOSAT-1", "METEOSAT-2", "METEOSAT-3", "METEOSAT-4", "METEOSAT-5", "METEOSAT-6", "METEOSAT-7", "METEOSAT-8",
        "METEOSAT-9", "METEOSAT-10", "METEOSAT-11", "METEOSAT-12", "METEOSAT-13", "METEOSAT-14", "METEOSAT-15"], (str n).length ≤ 11 := by
        decide
      exact this name
  · split at h
    · have := List.mem_of_getElem? h
      revert this
      clear h
      have : ∀ n ∈ ["GOES-E", "GOES-W", "GMS", "GOMS"], (str n).length ≤ 11 := by decide
      exact this name
    · cases h

/-- What the identification gives. -/
theorem ident99 {w : World} {file : Bytes} {a : Announced} {h : Header} {pix : Nat → Nat → Bytes} {F : File} {imgs : List Image}
    (r : Read99 w file a h pix F imgs) {name : String} {y mo d hh mi : Nat} (i : Identifies h.ident name y mo d hh mi)
    (hu : -43200 < w.utcoff ∧ w.utcoff ≤ 43200) :
    HriTools.satelliteText F.ident = str name ∧ tmOf F.ident = ⟨(y : Int) - 1900, (mo : Int) - 1, d, hh, mi, 0⟩ ∧
      F.ident.longitude = longitude h.ident := by
  obtain ⟨i1, i2, i3, i4, i5, i6, i7⟩ := i
  obtain ⟨j, e, h1, -, h3, h4, h5, h6, h7, -, -, -, -, h8⟩ := C74_ident_partial w.utcoff hu.1 hu.2 h.ident r.sized.ident name i1
    (by omega) (by omega) mo d (by rw [i2]; exact i4)
  rw [r.ident] at e
  rw [Outcome.ok.inj e]
  refine ⟨?_, ?_, ?_⟩
  · unfold HriTools.satelliteText
    rw [h1]
  · unfold tmOf
    rw [h3, h4, h5, h6, h7, i2, i5, i6]
  · rw [h8]
    rfl

theorem fits99 {ident : Bytes} {name : String} {y mo d h mi : Nat} (i : Identifies ident name y mo d h mi) : Fits y mo d h mi 0 := by
  obtain ⟨-, -, h3, ⟨h4, -⟩, -, -, h7⟩ := i
  have v5 : Spec.daysInMonth y mo ≤ 31 := by
    unfold Spec.daysInMonth
    split <;> (try split) <;> decide
  obtain ⟨v1, v2, v3, v4⟩ := h4
  exact ⟨by omega, by omega, by omega, by omega, by omega, by omega⟩

theorem area99 {l : Label} {a : Announced} (h : announced l = some a) : HriTools.areaName l = formatName a.family := by
  unfold announced family at h
  unfold HriTools.areaName Label.isA Label.isB
  split at h
  · rename_i h0
    rw [← Option.some.inj h, if_pos (by rw [h0]; rfl)]
    rfl
  · rename_i h0
    rw [if_neg (by simpa using h0)]
    split at h
    · rename_i h1
      rw [← Option.some.inj h, if_neg (by rw [h1]; decide)]
      rfl
    · split at h
      · rename_i h1
        rw [← Option.some.inj h, if_pos (by rw [h1]; rfl)]
        rfl
      · cases h

theorem nameOf99 (f : Format) (b : Band) : HriTools.nameOf f b = bandName f b := by cases f <;> cases b <;> rfl

theorem name_length (f : Format) (b : Band) : (str (bandName f b)).length ≤ 3 := by cases f <;> cases b <;> decide

theorem format_length (f : Format) : (formatName f).length = 7 := by cases f <;> rfl

/-- The name of a file. -/
theorem ncName99 {w : World} {file : Bytes} {a : Announced} {h : Header} {pix : Nat → Nat → Bytes} {F : File} {imgs : List Image}
    (r : Read99 w file a h pix F imgs) {name : String} {y mo d hh mi : Nat} (hs : HriTools.satelliteText F.ident = str name)
    (hn : (str name).length ≤ 11) (dst : Int) (f : Fits y mo d hh mi 0) (hy : 1000 ≤ y) (b : Band) :
    HriTools.sprintf 1024 (HriTools.ncName F ⟨(y : Int) - 1900, (mo : Int) - 1, d, hh, mi, dst⟩ (HriTools.nameOf a.family b)) =
      .ok (fileName name a.family b y mo d hh mi) := by
  obtain ⟨f1, f2, f3, f4, f5, -⟩ := f
  have e : HriTools.ncName F ⟨(y : Int) - 1900, (mo : Int) - 1, d, hh, mi, dst⟩ (HriTools.nameOf a.family b) =
      fileName name a.family b y mo d hh mi := by
    unfold HriTools.ncName fileName shortStamp
    dsimp only
    rw [hs, area99 r.announces, nameOf99, show (y : Int) - 1900 + 1900 = y by omega, show (mo : Int) - 1 + 1 = mo by omega,
      blank4_year ⟨hy, f1⟩, Text.fmt0_digits (by omega) (by omega), Text.fmt0_digits (by omega) (by omega),
      Text.fmt0_digits (by omega) (by omega), Text.fmt0_digits (by omega) (by omega)]
    simp only [List.append_assoc]
  rw [e]
  unfold HriTools.sprintf
  refine if_pos ?_
  have l1 := name_length a.family b
  have l2 := format_length a.family
  unfold fileName shortStamp
  simp only [List.length_append, Text.digits_length, l2]
  have l3 : (str "_").length = 1 := rfl
  have l4 : (str ".nc").length = 3 := rfl
  omega

/-! ### What is in a file -/

/-- Column `c` of line `j`. -/
def sampleAt99 (f : HriTools.NcImage) (j c : Nat) : Option (Option Int) := f.samples[j * f.columnDim + c]?

/-- The lines of the images. -/
def lineOf99 (f : Format) (b : Band) (line : Bytes) : List (Option Int) := (readLine f b line).map (Option.map signed)

theorem ncbyte99 (v : UInt8) : HriTools.ncbyte v = signed v := by
  unfold HriTools.ncbyte signed
  by_cases h : v.toNat < 128
  · rw [if_pos h, if_pos (by omega)]
  · rw [if_neg h, if_neg (by omega)]

theorem putImage99 {f : Format} {bs : List Band} {pix : Nat → Nat → Bytes} {imgs : List Image} (hs : Shows f bs pix imgs) {k : Nat} {b : Band}
    (hb : bs[k]? = some b) {img : Image} (hi : imgs[k]? = some img) :
    img.nlines = groupsOf f * perGroup b ∧ img.npixels = width f * perGroup b ∧ ∃ ss, HriTools.putImage img = .ok ss ∧
      ss.length = img.nlines * img.npixels ∧
      ∀ j c : Nat, j < img.nlines → c < img.npixels → ss[j * img.npixels + c]? = (lineOf99 f b (pix k j))[c]? := by
  obtain ⟨img', e, h1, h2, h3⟩ := hs.2 k b hb
  rw [hi] at e
  rw [← Option.some.inj e] at h1 h2 h3
  refine ⟨h1, h2, ?_⟩
  have hl : ∀ j : Nat, j < img.nlines → j * img.npixels + img.npixels ≤ img.data.length ∧
      (img.data.drop (j * img.npixels)).take img.npixels = readLine f b (pix k j) := by
    intro j hj
    have := h3 j hj
    unfold getLine at this
    split at this
    · cases this
    · split at this
      · cases this
      · dsimp only at this
        rw [Int.toNat_natCast] at this
        split at this
        · rename_i h
          exact ⟨h, Option.some.inj (Outcome.ok.inj this)⟩
        · cases this
  have hall : img.nlines * img.npixels ≤ img.data.length := by
    rcases Nat.eq_zero_or_pos img.nlines with h0 | h0
    · rw [h0, Nat.zero_mul]; exact Nat.zero_le _
    · have := (hl (img.nlines - 1) (by omega)).1
      rwa [← Nat.succ_mul, show (img.nlines - 1).succ = img.nlines by omega] at this
  refine ⟨_, if_pos hall, by rw [List.length_map, List.length_take, Nat.min_eq_left hall], fun j c hj hc => ?_⟩
  have hlt : j * img.npixels + c < img.nlines * img.npixels := by
    calc j * img.npixels + c < j * img.npixels + img.npixels := by omega
      _ = (j + 1) * img.npixels := (Nat.succ_mul _ _).symm
      _ ≤ _ := Nat.mul_le_mul_right _ hj
  unfold lineOf99
  rw [← (hl j hj).2, List.getElem?_map, List.getElem?_map, List.getElem?_take_of_lt hlt, List.getElem?_take_of_lt hc, List.getElem?_drop]
  cases img.data[j * img.npixels + c]? with
  | none => rfl
  | some v => cases v with
    | none => rfl
    | some v => simp only [Option.map_some, ncbyte99]

/-- Everything about the file of image `k`. -/
structure Parts99 (w : World) (a : Announced) (F : File) (pix : Nat → Nat → Bytes) (g : Geolocation) (t : Tm) (k : Nat) (b : Band)
    (f : HriTools.NcImage) : Prop where
  satellite : f.satellite = HriTools.satelliteText F.ident
  time : f.time = HriTools.timeText t
  area : f.areaName = formatName a.family
  projection : f.projection = str "GEOS(" ++ (HriToolsSpec.numberText F.ident.longitude ++ str ".0") ++ str ")"
  columns : f.columns = width a.family * perGroup b
  lines : f.lines = groupsOf a.family * perGroup b
  sampleX : f.sampleX = HriTools.sampleOf a.family b
  sampleY : f.sampleY = HriTools.sampleOf a.family b
  cfac : f.columnScaleFactor = g.cfac
  lfac : f.lineScaleFactor = g.lfac
  coff : f.columnOffset = g.coff
  loff : f.lineOffset = g.loff
  orbit : f.orbitRadius = F.interp.1.lookup "imag.satdis"
  longitude : f.longitude = F.ident.longitude
  title : f.title = (HriTools.satelliteText F.ident ++ str " product for " ++ f.time).take 127
  lineDim : f.lineDim = groupsOf a.family * perGroup b
  columnDim : f.columnDim = width a.family * perGroup b
  table : f.calibration.1 = 256 ∧ ∀ i, F.table w.garbage k i = .ok (f.calibration.2 i)
  units : f.units = unit b
  seconds : f.seconds = (w.mktime t).1 - 946684800 - w.timezone
  variable_ : f.variable_ = bandName a.family b
  chnum : f.chnum = HriTools.bandNumber b
  count : f.samples.length = f.lineDim * f.columnDim
  pixels : ∀ j c : Nat, j < f.lineDim → c < f.columnDim → sampleAt99 f j c = (lineOf99 a.family b (pix k j))[c]?

theorem table99 {w : World} {file : Bytes} {a : Announced} {h : Header} {pix : Nat → Nat → Bytes} {F : File} {imgs : List Image}
    (r : Read99 w file a h pix F imgs) {k : Nat} {b : Band} (hb : (bands a)[k]? = some b) (i : Nat) :
    F.table w.garbage k i = .ok (calibrationOf w.garbage (code a) F.ident F.interp.1 k b i) := by
  have hc := C35_code F.label
  rw [r.announces] at hc
  have him := ((C35_images F.label a r.announces _ hc).1 r.sent).1
  unfold File.table
  rw [hc, Outcome.ok_bind, him, Outcome.ok_bind, List.getElem?_map, hb]
  rfl

theorem sprintf99 {n : Nat} {t : Bytes} (h : t.length < n) : HriTools.sprintf n t = .ok t := if_pos h

theorem sprintf99_of {n : Nat} {t s : Bytes} (h : HriTools.sprintf n t = .ok s) : s = t := by
  unfold HriTools.sprintf at h
  split at h
  · exact (Outcome.ok.inj h).symm
  · cases h

/-- What was put in a file. -/
theorem parts99 {w : World} {file : Bytes} {a : Announced} {h : Header} {pix : Nat → Nat → Bytes} {F : File} {imgs : List Image}
    (r : Read99 w file a h pix F imgs) {g : Geolocation} {t : Tm} {k : Nat} {b : Band} (hb : (bands a)[k]? = some b) {img : Image}
    (hi : imgs[k]? = some img) {f : HriTools.NcImage} (hf : HriTools.content w F (code a) g t k (a.family, b) img = .ok f) :
    Parts99 w a F pix g t k b f := by
  obtain ⟨h1, h2, ss, h3, h4, h5⟩ := putImage99 r.shows hb hi
  unfold HriTools.content at hf
  obtain ⟨reftime, e1, hf⟩ := Outcome.of_bind_ok hf
  obtain ⟨projname, e2, hf⟩ := Outcome.of_bind_ok hf
  rw [h3, Outcome.ok_bind] at hf
  have e := Outcome.ok.inj hf
  subst e
  refine ⟨rfl, sprintf99_of e1, area99 r.announces, ?_, h2, h1, rfl, rfl, rfl, rfl, rfl, rfl, rfl, rfl, rfl, h1, h2, ⟨rfl, fun i => table99 r hb i⟩,
    ?_, rfl, nameOf99 _ _, rfl, h4, h5⟩
  · rw [← fixed1_text]; exact sprintf99_of e2
  · show unitsOf b = unit b
    cases b <;> rfl

/-- When the file of an image can be written. -/
theorem content99 {w : World} {file : Bytes} {a : Announced} {h : Header} {pix : Nat → Nat → Bytes} {F : File} {imgs : List Image}
    (r : Read99 w file a h pix F imgs) {g : Geolocation} {t : Tm} {k : Nat} {b : Band} (hb : (bands a)[k]? = some b) {img : Image}
    (hi : imgs[k]? = some img) (ht : (HriTools.timeText t).length < 64) (hl : F.ident.longitude = longitude h.ident) :
    ∃ f, HriTools.content w F (code a) g t k (a.family, b) img = .ok f := by
  obtain ⟨h1, h2, ss, h3, h4, h5⟩ := putImage99 r.shows hb hi
  unfold HriTools.content
  rw [sprintf99 ht, Outcome.ok_bind, sprintf99, Outcome.ok_bind, h3, Outcome.ok_bind]
  · exact ⟨_, rfl⟩
  · rw [hl, fixed1_text]
    have := numberText_length (twos_range h.ident 24)
    have e : (str "GEOS(").length = 5 ∧ (str ".0").length = 2 ∧ (str ")").length = 1 := ⟨rfl, rfl, rfl⟩
    simp only [List.length_append, e]
    unfold longitude
    omega

/-- Images and bands. -/
theorem zip99 {f : Format} {bs : List Band} {imgs : List Image} {m : Nat} {fb : Format × Band} {img : Image}
    (h : ((bs.map fun b => (f, b)).zip imgs)[m]? = some (fb, img)) : ∃ b, bs[m]? = some b ∧ fb = (f, b) ∧ imgs[m]? = some img := by
  rw [List.getElem?_zip_eq_some] at h
  obtain ⟨h1, h2⟩ := h
  rw [List.getElem?_map] at h1
  cases hb : bs[m]? with
  | none => rw [hb] at h1; cases h1
  | some b =>
    rw [hb] at h1
    exact ⟨b, rfl, (Option.some.inj h1).symm, h2⟩

/-- The files that were written. -/
theorem run99 {w : World} {file : Bytes} {a : Announced} {h : Header} {pix : Nat → Nat → Bytes}
    (rec : ∃ F imgs, Read99 w file a h pix F imgs) (hw : w.input = some file) (hl : w.longSize = 4) {arg : Bytes} (ha : arg ≠ str "-V") {rest : List Bytes} {m : Nat} {n : Bytes}
    {f : HriTools.NcImage} (hf : (HriTools.main w (arg :: rest)).files[m]? = some (n, f)) :
    ∃ F imgs g b, Read99 w file a h pix F imgs ∧ geolocationOf (code a) = .ok g ∧ (g.coff, g.loff) = centre a ∧ (bands a)[m]? = some b ∧
      HriTools.sprintf 1024 (HriTools.ncName F (tmAt w (tmOf F.ident) m) (HriTools.nameOf a.family b)) = .ok n ∧
      Parts99 w a F pix g (tmAt w (tmOf F.ident) m) m b f := by
  obtain ⟨F, imgs, r⟩ := rec
  obtain ⟨g, hg, hc⟩ := r.geo
  rw [main99 r hw hl ha rest hg] at hf
  obtain ⟨fb, img, e1, e2, e3⟩ := images_of w F (code a) g _ 0 _ m n f hf
  obtain ⟨b, hb, rfl, hi⟩ := zip99 e1
  rw [Nat.zero_add] at e3
  exact ⟨F, imgs, g, b, r, hg, hc, hb, e2, parts99 r hb hi e3⟩

theorem exports99 {w : World} {file : Bytes} {a : Announced} {h : Header} {pix : Nat → Nat → Bytes} {name : String}
    {y mo d hh mi : Nat} (rec : ∃ F imgs, Read99 w file a h pix F imgs) (hw : w.input = some file) (hl : w.longSize = 4)
    (hu : -43200 < w.utcoff ∧ w.utcoff ≤ 43200) (i : Identifies h.ident name y mo d hh mi)
    (hm : (w.mktime ⟨(y : Int) - 1900, (mo : Int) - 1, d, hh, mi, 0⟩).2 = ⟨(y : Int) - 1900, (mo : Int) - 1, d, hh, mi, 0⟩)
    (hcr : ∀ b ∈ bands a, w.creates (fileName name a.family b y mo d hh mi) = true) {arg : Bytes} (ha : arg ≠ str "-V") (rest : List Bytes) :
    (HriTools.main w (arg :: rest)).status = .ok 0 ∧
    (HriTools.main w (arg :: rest)).files.map Prod.fst = (bands a).map (fun b => fileName name a.family b y mo d hh mi) ∧
    ((bands a).map (fun b => fileName name a.family b y mo d hh mi)).Nodup := by
  obtain ⟨F, imgs, r⟩ := rec
  obtain ⟨g, hg, hc⟩ := r.geo
  obtain ⟨t1, t2, t3⟩ := ident99 r i hu
  have hf := fits99 i
  have hnm : ∀ b, HriTools.sprintf 1024 (HriTools.ncName F ⟨(y : Int) - 1900, (mo : Int) - 1, d, hh, mi, 0⟩ (HriTools.nameOf a.family b)) =
      .ok (fileName name a.family b y mo d hh mi) := fun b =>
    ncName99 r t1 (satellite_length i.satellite) 0 hf (by have := i.years; omega) b
  have htx : (HriTools.timeText ⟨(y : Int) - 1900, (mo : Int) - 1, d, hh, mi, 0⟩).length < 64 := by
    rw [timeText99 0 hf, List.length_append, stamp_length]
    decide
  have hlen : ((bands a).map fun b => (a.family, b)).length = imgs.length := by rw [List.length_map, r.shows.1]
  obtain ⟨h1, h2⟩ := images_all w F (code a) g (((bands a).map fun b => (a.family, b)).zip imgs) 0 (tmOf F.ident) (by
    intro m fb img e
    obtain ⟨b, hb, rfl, hi⟩ := zip99 e
    rw [t2, tmAt_fixed w _ hm, Nat.zero_add]
    obtain ⟨f, hf⟩ := content99 (w := w) (g := g) r hb hi htx t3
    exact ⟨_, f, hnm b, hcr b (List.mem_of_getElem? hb), hf⟩)
  rw [← main99 r hw hl ha rest hg] at h1 h2
  refine ⟨h1, ?_, ?_⟩
  · apply List.ext_getElem?
    intro m
    rw [List.getElem?_map, List.getElem?_map]
    cases hm' : (HriTools.main w (arg :: rest)).files[m]? with
    | none =>
      rw [List.getElem?_eq_none_iff] at hm'
      rw [h2, List.length_zip, hlen, Nat.min_self, r.shows.1, ← List.getElem?_eq_none_iff] at hm'
      rw [hm']
      rfl
    | some x =>
      obtain ⟨n, f⟩ := x
      rw [main99 r hw hl ha rest hg] at hm'
      obtain ⟨fb, img, e1, e2, e3⟩ := images_of w F (code a) g _ 0 _ m n f hm'
      obtain ⟨b, hb, rfl, hi⟩ := zip99 e1
      rw [t2, tmAt_fixed w _ hm, hnm] at e2
      rw [hb, ← Outcome.ok.inj e2]
      rfl
  · refine List.Nodup.map_on ?_ ?_
    · intro b1 hb1 b2 hb2 e
      unfold fileName at e
      have e' : str (bandName a.family b1) = str (bandName a.family b2) := by
        exact List.append_cancel_left (List.append_cancel_right (List.append_cancel_right (List.append_cancel_right e)))
      clear * - hb1 hb2 e'
      obtain ⟨f, i, v, w, r⟩ := a
      revert hb1 hb2 e'
      cases f <;> cases i <;> cases v <;> cases w <;> cases r <;> cases b1 <;> cases b2 <;> decide
    · clear * -
      obtain ⟨f, i, v, w, r⟩ := a
      cases f <;> cases i <;> cases v <;> cases w <;> cases r <;> decide

/-- Pixel `c` of line `j` of an image. -/
theorem pixel99 {w : World} {a : Announced} {F : File} {pix : Nat → Nat → Bytes} {g : Geolocation} {t : Tm} {k : Nat} {b : Band}
    {f : HriTools.NcImage} (p : Parts99 w a F pix g t k b f) (hv : b ≠ .VIS) {j c : Nat} (hj : j < f.lineDim) (hc : c < f.columnDim) :
    ∃ v, (pix k j)[c]? = some v ∧ f.samples[j * f.columnDim + c]? = some (some (signed v)) := by
  have e := p.pixels j c hj hc
  unfold sampleAt99 lineOf99 readLine at e
  rw [if_neg hv, List.map_map, List.getElem?_map] at e
  have hlt : j * f.columnDim + c < f.samples.length := by
    rw [p.count]
    calc j * f.columnDim + c < j * f.columnDim + f.columnDim := by omega
      _ = (j + 1) * f.columnDim := (Nat.succ_mul _ _).symm
      _ ≤ _ := Nat.mul_le_mul_right _ hj
  cases hp : (pix k j)[c]? with
  | none =>
    rw [hp] at e
    exact absurd (List.getElem?_eq_none_iff.mp e) (by omega)
  | some v =>
    rw [hp] at e
    exact ⟨v, rfl, e⟩

theorem geo99 {a : Announced} (hd : disseminated a = true) {g : Geolocation} (hg : geolocationOf (code a) = .ok g) {b : Band}
    (hb : b ∈ bands a) : (HriTools.sampleOf a.family b : Int) * 18204444 = step a.family b * -g.cfac ∧ g.lfac = g.cfac ∧ g.cfac < 0 := by
  have : ∀ a : Announced, b ∈ bands a → disseminated a = true → (match geolocationOf (code a) with
      | .ok g => decide ((HriTools.sampleOf a.family b : Int) * 18204444 = step a.family b * -g.cfac ∧ g.lfac = g.cfac ∧ g.cfac < 0)
      | _ => true) = true := by
    intro a hb hd
    obtain ⟨f, i, v, w, r⟩ := a
    revert hb hd
    cases f <;> cases i <;> cases v <;> cases w <;> cases r <;> cases b <;> decide
  have := this a hb hd
  rw [hg] at this
  exact of_decide_eq_true this

/-! ### The property -/

/-- A complete file of any disseminated format is exported: the program ends with status 0 and has written one file for each image, named
after the satellite, the format, the band and the time.  Missing for C99: machines on which `unsigned long` has eight bytes
(`C99_violated_long`), local times with daylight saving (`C99_violated_summer`). -/
theorem C99_exports_partial (w : World) (file : Bytes) (a : Announced) (h : Header) (pix : Nat → Nat → Bytes) (name : String)
    (y mo d hh mi : Nat) (hw : w.input = some file) (hl : w.longSize = 4) (hu : -43200 < w.utcoff ∧ w.utcoff ≤ 43200)
    (rec : Received file a h pix) (i : Identifies h.ident name y mo d hh mi)
    (hm : (w.mktime ⟨(y : Int) - 1900, (mo : Int) - 1, d, hh, mi, 0⟩).2 = ⟨(y : Int) - 1900, (mo : Int) - 1, d, hh, mi, 0⟩)
    (hcr : ∀ b ∈ bands a, w.creates (fileName name a.family b y mo d hh mi) = true) (arg : Bytes) (ha : arg ≠ str "-V") (rest : List Bytes) :
    (HriTools.main w (arg :: rest)).status = .ok 0 ∧
    (HriTools.main w (arg :: rest)).files.map Prod.fst = (bands a).map (fun b => fileName name a.family b y mo d hh mi) ∧
    ((bands a).map (fun b => fileName name a.family b y mo d hh mi)).Nodup := by
  exact exports99 (read99 w rec) hw hl hu i hm hcr ha rest

/-- A time zone without daylight saving, `zone` seconds behind UTC. -/
def plainWorld (file : Bytes) (zone : Int) : World :=
  ⟨some file, 4, -zone, fun t => (Datetime.mktimeUTC (t.year + 1900) (t.month + 1) t.day t.hour t.minute 0 + zone, t), zone, fun _ => true, (0, 0)⟩

/-- A file of the format B with infrared and visible images of the sizes of the format, of METEOSAT-7, 2002-02-01 12:30. -/
theorem aReceived (pix : Nat → Nat → Bytes) (hpix : ∀ k j, (pix k j).length = 1250 * (k + 1)) :
    Received (fileBytes .B (aHeader .B (aLabel 255 1 1 0)) ((imageLines .B [.IR, .VIS] pix).map (wrap .B)) ++ []) ⟨.B, true, true, false, false⟩
      (aHeader .B (aLabel 255 1 1 0)) pix := by
  refine ⟨rfl, ⟨rfl, rfl, rfl, List.length_replicate, rfl⟩, by decide, by unfold knownIdent; decide, _, [], ?_, ?_, rfl⟩
  · intro s hs
    simp only [List.mem_map, imageLines, List.mem_flatMap, List.mem_range] at hs
    obtain ⟨l, ⟨i, _, hl⟩, rfl⟩ := hs
    refine ⟨List.length_replicate, ?_, List.length_replicate⟩
    show l.length = 1250
    have p0 := hpix 0
    have p1 := hpix 1
    simp only [group, pieces, if_true, reduceCtorEq, if_false,
      List.append_nil, List.cons_append, List.nil_append, List.mem_cons, List.not_mem_nil, or_false, width, Nat.zero_add] at hl
    rcases hl with rfl | rfl | rfl | rfl | rfl <;> simp [p0, p1]
  · simp [wrap, Function.comp_def, bands]

theorem anIdentifies : Identifies anIdent "METEOSAT-7" 2002 2 1 12 30 :=
  ⟨by decide, by decide, by decide, by unfold dayOfYear Spec.ValidDate; decide, by decide, by decide, by decide⟩

example (pix : Nat → Nat → Bytes) (hpix : ∀ k j, (pix k j).length = 1250 * (k + 1)) (file : Bytes)
    (hfile : file = fileBytes .B (aHeader .B (aLabel 255 1 1 0)) ((imageLines .B [.IR, .VIS] pix).map (wrap .B)) ++ []) :
    (HriTools.main (plainWorld file (-3600)) [str "f.hri"]).status = .ok 0 ∧
    (HriTools.main (plainWorld file (-3600)) [str "f.hri"]).files.map Prod.fst =
      [str "METEOSAT-7_BFormat_IR_20020201_1230.nc", str "METEOSAT-7_BFormat_VIS_20020201_1230.nc"] := by
  subst hfile
  have := C99_exports_partial (plainWorld _ (-3600)) _ _ _ pix "METEOSAT-7" 2002 2 1 12 30 rfl rfl ⟨by show (-43200 : Int) < - -3600; decide, by show - -3600 ≤ (43200 : Int); decide⟩
    (aReceived pix hpix) anIdentifies rfl (fun _ _ => rfl) (str "f.hri") (by decide) []
  exact ⟨this.1, this.2.1.trans (by decide +kernel)⟩

/-- What is in the file of an image: the satellite, the format, its dimensions, band, unit, and its pixels in their places; of a visible
image at full resolution see `C99_violated_visible`, of pixels of 128 and more `C99_violated_bright`. -/
theorem C99_image (w : World) (file : Bytes) (a : Announced) (h : Header) (pix : Nat → Nat → Bytes) (name : String) (y mo d hh mi : Nat)
    (hw : w.input = some file) (hl : w.longSize = 4) (hu : -43200 < w.utcoff ∧ w.utcoff ≤ 43200) (rec : Received file a h pix)
    (i : Identifies h.ident name y mo d hh mi) (arg : Bytes) (ha : arg ≠ str "-V") (rest : List Bytes) (m : Nat) (n : Bytes)
    (f : HriTools.NcImage) (hf : (HriTools.main w (arg :: rest)).files[m]? = some (n, f)) :
    ∃ b, (bands a)[m]? = some b ∧ f.satellite = str name ∧ f.areaName = formatName a.family ∧
      dims a.family b = some (f.columns, f.lines) ∧ dims a.family b = some (f.columnDim, f.lineDim) ∧
      f.variable_ = bandName a.family b ∧ f.units = unit b ∧ f.chnum = (match b with | .IR => 0 | .WV => 1 | .VIS => 2 | .VH => 3) ∧
      f.samples.length = f.lineDim * f.columnDim ∧
      (b ≠ .VIS → ∀ j c : Nat, j < f.lineDim → c < f.columnDim → ∃ v : UInt8, (pix m j)[c]? = some v ∧
        (v.toNat ≤ 127 → f.samples[j * f.columnDim + c]? = some (some (v.toNat : Int)))) := by
  obtain ⟨F, imgs, g, b, r, hg, hc, hb, hn, p⟩ := run99 (read99 w rec) hw hl ha hf
  obtain ⟨t1, t2, t3⟩ := ident99 r i hu
  have hdim := bands_dims a rec.sent b (List.mem_of_getElem? hb)
  refine ⟨b, hb, by rw [p.satellite, t1], p.area, by rw [p.columns, p.lines, hdim], by rw [p.columnDim, p.lineDim, hdim], p.variable_, p.units,
    by rw [p.chnum]; cases b <;> rfl, p.count, fun hv j c hj hcc => ?_⟩
  obtain ⟨v, e1, e2⟩ := pixel99 p hv hj hcc
  refine ⟨v, e1, fun hv => ?_⟩
  rw [e2]
  unfold signed
  rw [if_pos hv]

/-- Where the export says that the image is: the centre of the disk is that of the format, the distance between pixels that of format and
band, and the longitude is that of the identification. -/
theorem C99_place (w : World) (file : Bytes) (a : Announced) (h : Header) (pix : Nat → Nat → Bytes) (name : String) (y mo d hh mi : Nat)
    (hw : w.input = some file) (hl : w.longSize = 4) (hu : -43200 < w.utcoff ∧ w.utcoff ≤ 43200) (rec : Received file a h pix)
    (i : Identifies h.ident name y mo d hh mi) (arg : Bytes) (ha : arg ≠ str "-V") (rest : List Bytes) (m : Nat) (n : Bytes)
    (f : HriTools.NcImage) (hf : (HriTools.main w (arg :: rest)).files[m]? = some (n, f)) :
    ∃ b, (bands a)[m]? = some b ∧ (f.columnOffset, f.lineOffset) = centre a ∧
      (f.sampleX : Int) * 18204444 = step a.family b * -f.columnScaleFactor ∧ f.lineScaleFactor = f.columnScaleFactor ∧
      f.columnScaleFactor < 0 ∧ f.sampleY = f.sampleX ∧ f.longitude = longitude h.ident ∧
      f.projection = str "GEOS(" ++ HriToolsSpec.numberText (longitude h.ident) ++ str ".0)" := by
  obtain ⟨F, imgs, g, b, r, hg, hc, hb, hn, p⟩ := run99 (read99 w rec) hw hl ha hf
  obtain ⟨t1, t2, t3⟩ := ident99 r i hu
  obtain ⟨g1, g2, g3⟩ := geo99 rec.sent hg (List.mem_of_getElem? hb)
  refine ⟨b, hb, by rw [p.coff, p.loff, hc], by rw [p.sampleX, p.cfac, g1], by rw [p.lfac, p.cfac, g2], by rw [p.cfac]; exact g3,
    by rw [p.sampleY, p.sampleX], by rw [p.longitude, t3], ?_⟩
  rw [p.projection, t3]
  simp only [List.append_assoc]
  rfl

/-- The times: in the name, in the attributes, and in seconds, in a time zone without daylight saving. -/
theorem C99_times (w : World) (file : Bytes) (a : Announced) (h : Header) (pix : Nat → Nat → Bytes) (name : String) (y mo d hh mi : Nat)
    (hw : w.input = some file) (hl : w.longSize = 4) (hu : -43200 < w.utcoff ∧ w.utcoff ≤ 43200) (rec : Received file a h pix)
    (i : Identifies h.ident name y mo d hh mi) (hy : 2000 ≤ y)
    (hm : w.mktime ⟨(y : Int) - 1900, (mo : Int) - 1, d, hh, mi, 0⟩ =
      (Datetime.mktimeUTC y mo d hh mi 0 + w.timezone, ⟨(y : Int) - 1900, (mo : Int) - 1, d, hh, mi, 0⟩))
    (arg : Bytes) (ha : arg ≠ str "-V") (rest : List Bytes) (m : Nat) (n : Bytes)
    (f : HriTools.NcImage) (hf : (HriTools.main w (arg :: rest)).files[m]? = some (n, f)) :
    (∃ b, (bands a)[m]? = some b ∧ n = fileName name a.family b y mo d hh mi) ∧
    f.time = stamp y mo d hh mi 0 ++ str " UTC" ∧
    f.title = str name ++ str " product for " ++ (stamp y mo d hh mi 0 ++ str " UTC") ∧
    f.seconds = since2000 y mo d hh mi 0 := by
  obtain ⟨F, imgs, g, b, r, hg, hc, hb, hn, p⟩ := run99 (read99 w rec) hw hl ha hf
  obtain ⟨t1, t2, t3⟩ := ident99 r i hu
  have ht := fits99 i
  rw [t2, tmAt_fixed w ⟨(y : Int) - 1900, (mo : Int) - 1, d, hh, mi, 0⟩ (by rw [hm])] at hn p
  rw [ncName99 r t1 (satellite_length i.satellite) 0 ht (by omega) b] at hn
  have htime : f.time = stamp y mo d hh mi 0 ++ str " UTC" := by rw [p.time, timeText99 0 ht]
  refine ⟨⟨b, hb, (Outcome.ok.inj hn).symm⟩, htime, ?_, ?_⟩
  · rw [p.title, t1, htime, List.take_of_length_le]
    have := satellite_length i.satellite
    have e : (str " product for ").length = 13 ∧ (str " UTC").length = 4 := ⟨rfl, rfl⟩
    simp only [List.length_append, stamp_length, e]
    omega
  · rw [p.seconds, hm]
    dsimp only
    rw [← utc_seconds (s := 0) ⟨hy, i.years.2⟩ i.date.1 i.day.1 i.day.2]
    push_cast
    omega

example (file : Bytes) : (plainWorld file (-3600)).mktime ⟨102, 1, 1, 12, 30, 0⟩ =
    (Datetime.mktimeUTC 2002 2 1 12 30 0 + (plainWorld file (-3600)).timezone, ⟨102, 1, 1, 12, 30, 0⟩) := rfl

/-- The calibration of the thermal images of Meteosat: the temperature of the black body whose radiance the interpretation data give for
each count (C77), and of the visible ones percentages. -/
theorem C99_calibration (w : World) (file : Bytes) (a : Announced) (h : Header) (pix : Nat → Nat → Bytes)
    (hw : w.input = some file) (hl : w.longSize = 4) (rec : Received file a h pix) (hx : a.family ≠ .X)
    (arg : Bytes) (ha : arg ≠ str "-V") (rest : List Bytes) (m : Nat) (n : Bytes)
    (f : HriTools.NcImage) (hf : (HriTools.main w (arg :: rest)).files[m]? = some (n, f)) :
    f.calibration.1 = 256 ∧ ∃ b, (bands a)[m]? = some b ∧ (∀ i : ℕ, i < 256 →
      (∀ AB : ℝ × ℝ, handbook b = some AB → isCalibrated h.interp b → spaceCount h.interp b < i → 0 < coefficient h.interp b →
        ∃ T, f.calibration.2 i = some T ∧ 0 < T ∧ radiance AB T = coefficient h.interp b * (i - spaceCount h.interp b)) ∧
      (b = .VIS ∨ b = .VH → ∃ p, f.calibration.2 i = some p ∧ p * 255 = 100 * i)) := by
  obtain ⟨F, imgs, g, b, r, hg, hc, hb, hn, p⟩ := run99 (read99 w rec) hw hl ha hf
  refine ⟨p.table.1, b, hb, fun i hi => ⟨fun AB hAB hcal hs h0 => ?_, fun hv => ?_⟩⟩
  · obtain ⟨T, e1, e2, e3⟩ := (C77_temperature_partial w.garbage F a r.announces r.sent hx h.interp r.sized.interp r.interp m b hb AB hAB hcal i
      hi).1 hs h0
    rw [p.table.2] at e1
    exact ⟨T, Outcome.ok.inj e1, e2, e3⟩
  · obtain ⟨v, e1, e2, -⟩ := (C77_visible w.garbage F a r.announces r.sent hx m b hb hv).2 i hi
    rw [p.table.2] at e1
    exact ⟨v, Outcome.ok.inj e1, e2⟩

/-! ### Violations -/

/-- On machines on which `unsigned long` has eight bytes no file is exported: its reading is undefined. -/
theorem C99_violated_long (w : World) (f : Format) (h : Header) (hs : h.Sized f) (hk : knownIdent h.ident) (more : Bytes)
    (hw : w.input = some (headerFrames f h ++ more)) (hl : w.longSize = 8) (arg : Bytes) (ha : arg ≠ str "-V") (rest : List Bytes) :
    HriTools.main w (arg :: rest) = ⟨.ub, []⟩ := by
  unfold HriTools.main
  dsimp only
  rw [if_neg ha, hw, hl]
  dsimp only
  rw [C73_violated_long f h hs hk]

/-- When local time has daylight saving, `mktime` adds an hour to the time of the identification: the second image is named and
labelled an hour late, although its time in seconds is right. -/
theorem C99_violated_summer (w : World) (file : Bytes) (a : Announced) (h : Header) (pix : Nat → Nat → Bytes) (name : String)
    (y mo d hh mi : Nat) (hw : w.input = some file) (hl : w.longSize = 4) (hu : -43200 < w.utcoff ∧ w.utcoff ≤ 43200)
    (rec : Received file a h pix) (i : Identifies h.ident name y mo d hh mi) (hy : 2000 ≤ y) (hh' : hh ≤ 22)
    (hm : w.mktime ⟨(y : Int) - 1900, (mo : Int) - 1, d, hh, mi, 0⟩ =
      (Datetime.mktimeUTC y mo d hh mi 0 + w.timezone, ⟨(y : Int) - 1900, (mo : Int) - 1, d, (hh + 1 : Nat), mi, 1⟩))
    (hm' : w.mktime ⟨(y : Int) - 1900, (mo : Int) - 1, d, (hh + 1 : Nat), mi, 1⟩ =
      (Datetime.mktimeUTC y mo d hh mi 0 + w.timezone, ⟨(y : Int) - 1900, (mo : Int) - 1, d, (hh + 1 : Nat), mi, 1⟩))
    (arg : Bytes) (ha : arg ≠ str "-V") (rest : List Bytes) (n : Bytes)
    (f : HriTools.NcImage) (hf : (HriTools.main w (arg :: rest)).files[1]? = some (n, f)) :
    (∃ b, (bands a)[1]? = some b ∧ n = fileName name a.family b y mo d (hh + 1) mi) ∧
    f.time = stamp y mo d (hh + 1) mi 0 ++ str " UTC" ∧ f.seconds = since2000 y mo d hh mi 0 := by
  obtain ⟨F, imgs, g, b, r, hg, hc, hb, hn, p⟩ := run99 (read99 w rec) hw hl ha hf
  obtain ⟨t1, t2, t3⟩ := ident99 r i hu
  have ht : Fits y mo d (hh + 1) mi 0 := by
    obtain ⟨f1, f2, f3, f4, f5, f6⟩ := fits99 i
    exact ⟨f1, f2, f3, by omega, f5, f6⟩
  have e : tmAt w (tmOf F.ident) 1 = ⟨(y : Int) - 1900, (mo : Int) - 1, d, (hh + 1 : Nat), mi, 1⟩ := by
    rw [t2]
    show (w.mktime _).2 = _
    rw [hm]
  rw [e] at hn p
  rw [ncName99 r t1 (satellite_length i.satellite) 1 ht (by omega) b] at hn
  refine ⟨⟨b, hb, (Outcome.ok.inj hn).symm⟩, by rw [p.time, timeText99 1 ht], ?_⟩
  rw [p.seconds, hm']
  dsimp only
  rw [← utc_seconds (s := 0) ⟨hy, i.years.2⟩ i.date.1 i.day.1 i.day.2]
  push_cast
  omega

/-- A `mktime` of a place where it is summer all year, an hour ahead of UTC without daylight saving. -/
example : let mk : Tm → Int × Tm := fun t =>
      (Datetime.mktimeUTC (t.year + 1900) (t.month + 1) t.day (t.hour - t.isdst) t.minute 0 - 3600,
        if t.isdst = 0 then { t with hour := t.hour + 1, isdst := 1 } else t)
    mk ⟨102, 1, 1, 12, 30, 0⟩ = (Datetime.mktimeUTC 2002 2 1 12 30 0 + -3600, ⟨102, 1, 1, 13, 30, 1⟩) ∧
      mk ⟨102, 1, 1, 13, 30, 1⟩ = (Datetime.mktimeUTC 2002 2 1 12 30 0 + -3600, ⟨102, 1, 1, 13, 30, 1⟩) := by
  decide +kernel

/-- Pixels of 128 and more are exported as negative numbers. -/
theorem C99_violated_bright (w : World) (file : Bytes) (a : Announced) (h : Header) (pix : Nat → Nat → Bytes)
    (hw : w.input = some file) (hl : w.longSize = 4) (rec : Received file a h pix) (arg : Bytes) (ha : arg ≠ str "-V") (rest : List Bytes)
    (m : Nat) (n : Bytes) (f : HriTools.NcImage) (hf : (HriTools.main w (arg :: rest)).files[m]? = some (n, f))
    (hv : (bands a)[m]? ≠ some .VIS) (j c : Nat) (hj : j < f.lineDim) (hc : c < f.columnDim) (v : UInt8) (hp : (pix m j)[c]? = some v)
    (hb : 128 ≤ v.toNat) : f.samples[j * f.columnDim + c]? = some (some ((v.toNat : Int) - 256)) := by
  obtain ⟨F, imgs, g, b, r, hg, -, hb', hn, p⟩ := run99 (read99 w rec) hw hl ha hf
  obtain ⟨v', e1, e2⟩ := pixel99 p (fun e => hv (by rw [hb', e])) hj hc
  rw [hp] at e1
  rw [e2, ← Option.some.inj e1]
  unfold signed
  rw [if_neg (by omega)]

/-- In visible images at full resolution the second half of every line is two pixels early, and the last two pixels are memory that was
never written. -/
theorem C99_violated_visible (w : World) (file : Bytes) (a : Announced) (h : Header) (pix : Nat → Nat → Bytes)
    (hw : w.input = some file) (hl : w.longSize = 4) (rec : Received file a h pix) (arg : Bytes) (ha : arg ≠ str "-V") (rest : List Bytes)
    (m : Nat) (n : Bytes) (f : HriTools.NcImage) (hf : (HriTools.main w (arg :: rest)).files[m]? = some (n, f))
    (hv : (bands a)[m]? = some .VIS) (j : Nat) (hj : j < f.lineDim) (hp : (pix m j).length = f.columnDim) :
    (∀ c : Nat, width a.family ≤ c → ∀ v, (pix m j)[c]? = some v → f.samples[j * f.columnDim + (c - 2)]? = some (some (signed v))) ∧
    f.samples[j * f.columnDim + (f.columnDim - 2)]? = some none ∧ f.samples[j * f.columnDim + (f.columnDim - 1)]? = some none := by
  obtain ⟨F, imgs, g, b, r, hg, -, hb', hn, p⟩ := run99 (read99 w rec) hw hl ha hf
  rw [hv] at hb'
  have hbb := (Option.some.inj hb').symm
  subst hbb
  have hcd : f.columnDim = 2 * width a.family := by rw [p.columnDim]; exact Nat.mul_comm _ _
  have hw2 : 1250 ≤ width a.family := by cases a.family <;> decide
  have e : ∀ c : Nat, c < f.columnDim → f.samples[j * f.columnDim + c]? =
      (((pix m j).take (width a.family - 2) ++ (pix m j).drop (width a.family)).map (fun v => some (signed v)) ++ [none, none])[c]? := by
    intro c hc
    have e := p.pixels j c hj hc
    unfold sampleAt99 lineOf99 readLine at e
    rw [if_pos rfl, List.map_append, List.map_map] at e
    exact e
  have l1 : (((pix m j).take (width a.family - 2) ++ (pix m j).drop (width a.family)).map (fun v => some (signed v))).length =
      f.columnDim - 2 := by
    rw [List.length_map, List.length_append, List.length_take, List.length_drop, hp, hcd]
    omega
  refine ⟨fun c hc v hcv => ?_, ?_, ?_⟩
  · have hlt : c < f.columnDim := by
      rw [← hp]
      exact (List.getElem?_eq_some_iff.mp hcv).1
    rw [e _ (by omega), List.getElem?_append_left (by rw [l1]; omega), List.getElem?_map, List.getElem?_append_right (by
      rw [List.length_take]; omega), List.getElem?_drop, List.length_take, hp,
      show width a.family + (c - 2 - min (width a.family - 2) f.columnDim) = c by omega, hcv]
    rfl
  · rw [e _ (by omega), List.getElem?_append_right (by omega), l1, Nat.sub_self]
    rfl
  · rw [e _ (by omega), List.getElem?_append_right (by omega), l1, show f.columnDim - 1 - (f.columnDim - 2) = 1 by omega]
    rfl

/-- A file that ends after any number of groups of lines is exported like a complete one, with status 0: the lines that are missing are
black.  (The lines of the images are `pix`, those after the `g`-th group all zeros.) -/
theorem C99_violated_truncated (w : World) (a : Announced) (hd : disseminated a = true) (h : Header) (hs : h.Sized a.family)
    (hlab : announces h.label = some a) (hk : knownIdent h.ident) (pix : Nat → Nat → Bytes) (g : Nat) (hg : g < groupsOf a.family)
    (ss : List Sub) (hss : ∀ s ∈ ss, s.Sized a.family)
    (hpix : ss.map (·.line) = (List.range g).flatMap fun i => group a.family pix i 0 (bands a))
    (black : ∀ k b, (bands a)[k]? = some b → ∀ j, perGroup b * g ≤ j → pix k j = List.replicate (width a.family * perGroup b) 0)
    (name : String) (y mo d hh mi : Nat) (hw : w.input = some (fileBytes a.family h ss)) (hl : w.longSize = 4)
    (hu : -43200 < w.utcoff ∧ w.utcoff ≤ 43200) (i : Identifies h.ident name y mo d hh mi)
    (hm : (w.mktime ⟨(y : Int) - 1900, (mo : Int) - 1, d, hh, mi, 0⟩).2 = ⟨(y : Int) - 1900, (mo : Int) - 1, d, hh, mi, 0⟩)
    (hcr : ∀ b ∈ bands a, w.creates (fileName name a.family b y mo d hh mi) = true) (arg : Bytes) (ha : arg ≠ str "-V") (rest : List Bytes) :
    (HriTools.main w (arg :: rest)).status = .ok 0 ∧
    (HriTools.main w (arg :: rest)).files.map Prod.fst = (bands a).map (fun b => fileName name a.family b y mo d hh mi) ∧
    ∀ (m : Nat) (n : Bytes) (f : HriTools.NcImage), (HriTools.main w (arg :: rest)).files[m]? = some (n, f) → (bands a)[m]? ≠ some .VIS →
      ∀ b, (bands a)[m]? = some b → ∀ j c : Nat, perGroup b * g ≤ j → j < f.lineDim → c < f.columnDim →
        f.samples[j * f.columnDim + c]? = some (some 0) := by
  obtain ⟨F, imgs, e, ⟨h1, h3, h4⟩, h6, hshow⟩ := C73_violated_truncated a hd h hs hlab hk pix g hg ss hss hpix black w.utcoff (List.replicate 2500 0)
  have r : ∃ F imgs, Read99 w (fileBytes a.family h ss) a h pix F imgs :=
    ⟨F, imgs, e, h3, h4, by rw [announced_of hs.label h1, hlab], hd, h6, hshow, hs⟩
  obtain ⟨x1, x2, -⟩ := exports99 r hw hl hu i hm hcr ha rest
  refine ⟨x1, x2, fun m n f hf hv b hb j c hj hjl hc => ?_⟩
  obtain ⟨F, imgs, g, b', r, hg, -, hb', hn, p⟩ := run99 r hw hl ha hf
  rw [hb] at hb' hv
  have := (Option.some.inj hb').symm
  subst this
  obtain ⟨v, e1, e2⟩ := pixel99 p (fun e => hv (by rw [e])) hjl hc
  rw [black m b' hb j hj, List.getElem?_replicate] at e1
  split at e1
  · rw [e2, ← Option.some.inj e1]
    decide
  · cases e1

/-- A header and no image at all. -/
example : (HriTools.main (plainWorld (fileBytes .B (aHeader .B (aLabel 255 1 1 0)) []) 0) [str "f.hri"]).status = .ok 0 := by
  suffices H : _ by
    exact (C99_violated_truncated (plainWorld (fileBytes .B (aHeader .B (aLabel 255 1 1 0)) []) 0) ⟨.B, true, true, false, false⟩ rfl
      (aHeader .B (aLabel 255 1 1 0)) ⟨rfl, rfl, rfl, List.length_replicate, rfl⟩ (by decide) (by unfold knownIdent; decide)
      (fun k _ => List.replicate (1250 * (k + 1)) 0) 0 (by decide) [] (by simp) rfl H "METEOSAT-7" 2002 2 1 12 30 rfl rfl
      (show -43200 < (0 : Int) ∧ (0 : Int) ≤ 43200 by decide) anIdentifies rfl (fun _ _ => rfl) (str "f.hri") (by decide) []).1
  intro k b hb j _
  match k, hb with
  | 0, hb => injection hb with hb; subst hb; rfl
  | 1, hb => injection hb with hb; subst hb; rfl

/-- A file that cannot be opened aborts the program. -/
theorem C99_violated_missing (w : World) (hw : w.input = none) (arg : Bytes) (ha : arg ≠ str "-V") (rest : List Bytes) :
    HriTools.main w (arg :: rest) = ⟨.terminate, []⟩ := by
  unfold HriTools.main
  dsimp only
  rw [if_neg ha, hw]

/-- When the file of the second image cannot be created, the program fails and leaves the file of the first. -/
theorem C99_violated_leftover (w : World) (file : Bytes) (a : Announced) (h : Header) (pix : Nat → Nat → Bytes) (name : String)
    (y mo d hh mi : Nat) (hw : w.input = some file) (hl : w.longSize = 4) (hu : -43200 < w.utcoff ∧ w.utcoff ≤ 43200)
    (rec : Received file a h pix) (i : Identifies h.ident name y mo d hh mi)
    (hm : (w.mktime ⟨(y : Int) - 1900, (mo : Int) - 1, d, hh, mi, 0⟩).2 = ⟨(y : Int) - 1900, (mo : Int) - 1, d, hh, mi, 0⟩)
    (b b' : Band) (hb : bands a = [b, b']) (h1 : w.creates (fileName name a.family b y mo d hh mi) = true)
    (h2 : w.creates (fileName name a.family b' y mo d hh mi) = false) (arg : Bytes) (ha : arg ≠ str "-V") (rest : List Bytes) :
    (HriTools.main w (arg :: rest)).status = .ok 1 ∧
    (HriTools.main w (arg :: rest)).files.map Prod.fst = [fileName name a.family b y mo d hh mi] := by
  obtain ⟨F, imgs, r⟩ := read99 w rec
  obtain ⟨g, hg, hc⟩ := r.geo
  obtain ⟨t1, t2, t3⟩ := ident99 r i hu
  have hf := fits99 i
  have hnm : ∀ b, HriTools.sprintf 1024 (HriTools.ncName F ⟨(y : Int) - 1900, (mo : Int) - 1, d, hh, mi, 0⟩ (HriTools.nameOf a.family b)) =
      .ok (fileName name a.family b y mo d hh mi) := fun b =>
    ncName99 r t1 (satellite_length i.satellite) 0 hf (by have := i.years; omega) b
  have htx : (HriTools.timeText ⟨(y : Int) - 1900, (mo : Int) - 1, d, hh, mi, 0⟩).length < 64 := by
    rw [timeText99 0 hf, List.length_append, stamp_length]
    decide
  obtain ⟨x, x', hxx⟩ : ∃ x x', imgs = [x, x'] := by
    have := r.shows.1
    rw [hb] at this
    match imgs, this with
    | [x, x'], _ => exact ⟨x, x', rfl⟩
  obtain ⟨c, hcont⟩ := content99 (w := w) (g := g) (k := 0) (b := b) (img := x) r (by rw [hb]; rfl) (by rw [hxx]; rfl) htx t3
  rw [main99 r hw hl ha rest hg, hb, hxx, t2]
  simp only [List.map_cons, List.map_nil, List.zip_cons_cons, List.zip_nil_right, HriTools.images]
  rw [hnm b]
  dsimp only
  rw [if_neg (by rw [h1]; decide), hcont]
  dsimp only
  rw [hm, hnm b']
  dsimp only
  rw [if_pos h2]
  exact ⟨rfl, rfl⟩

example : bands ⟨.B, true, true, false, false⟩ = [.IR, .VIS] ∧
    fileName "METEOSAT-7" .B .IR 2002 2 1 12 30 ≠ fileName "METEOSAT-7" .B .VIS 2002 2 1 12 30 := by decide +kernel

/-- Without arguments the program fails, with `-V` it does not; nothing is written. -/
theorem C99_arguments (w : World) (rest : List Bytes) :
    HriTools.main w [] = ⟨.ok 1, []⟩ ∧ HriTools.main w (str "-V" :: rest) = ⟨.ok 0, []⟩ := by
  refine ⟨rfl, ?_⟩
  unfold HriTools.main
  dsimp only
  rw [if_pos rfl]

end Msat.Props
