import Verif.Lemmas.HriLoop
import Verif.Lemmas.HriHeader
import Verif.Props.C34

namespace Msat.Props
open Hri HriSpec

/-! ### Images from a stream of lines -/

theorem dims_sizes (f : Format) (b : Band) (npx nl : Nat) (h : dims f b = some (npx, nl)) :
    npx = width f * perGroup b ∧ nl = groupsOf f * perGroup b := by
  cases f <;> cases b <;> first
    | (injection h with h; injection h with h1 h2; subst h1; subst h2; exact ⟨rfl, rfl⟩)
    | cases h

/-- New images. -/
theorem makeImages_good (f : Format) (pix : Nat → Nat → Bytes) (bs : List Band) :
    ∀ k : Nat, (∀ b ∈ bs, ∃ npx nl, dims f b = some (npx, nl)) →
    ∃ imgs, makeImages (bs.map fun b => (f, b)) = .ok imgs ∧ imgs.length = bs.length ∧
      ∀ m b, bs[m]? = some b → ∃ img, imgs[m]? = some img ∧ Good f b (pix (k + m)) 0 img := by
  induction bs with
  | nil => intro _ _; exact ⟨[], rfl, rfl, fun m b h => by simp at h⟩
  | cons b bs ih =>
    intro k h
    obtain ⟨npx, nl, hd⟩ := h b List.mem_cons_self
    obtain ⟨imgs, e, hl, g⟩ := ih (k + 1) (fun b hb => h b (List.mem_cons_of_mem _ hb))
    have hdim := C32_dimensions f b
    rw [hd] at hdim
    obtain ⟨img, hok, _⟩ := hdim
    obtain ⟨npx', nl', hd', wf, fresh⟩ := setFormatBand_wf hok
    obtain ⟨rfl, rfl⟩ := dims_sizes _ _ _ _ hd'
    refine ⟨img :: imgs, ?_, by simp [hl], ?_⟩
    · rw [List.map_cons, makeImages, hok, Outcome.ok_bind, e]
      rfl
    · intro m b' hm
      cases m with
      | zero =>
        rw [List.getElem?_cons_zero] at hm
        injection hm with hm
        subst hm
        refine ⟨img, rfl, wf, fun j hj => ?_⟩
        rw [if_neg (by omega), row, fresh, List.drop_replicate, List.take_replicate, Nat.min_eq_left]
        have : (j + 1) * (width f * perGroup b) ≤ groupsOf f * perGroup b * (width f * perGroup b) := Nat.mul_le_mul_right _ hj
        rw [Nat.add_mul, Nat.one_mul] at this
        omega
      | succ m =>
        obtain ⟨im, h1, h2⟩ := g m b' hm
        rw [show k + 1 + m = k + (m + 1) by omega] at h2
        exact ⟨im, h1, h2⟩

theorem steps_code (a : Announced) (h : disseminated a = true) : stepsOf (code a) = stepsFor 0 (bands a) := by
  obtain ⟨f, i, v, w, r⟩ := a
  cases f <;> cases i <;> cases v <;> cases w <;> cases r <;> first | (exact absurd h (by decide)) | decide

theorem iterations_code (a : Announced) (h : disseminated a = true) (imgs : List Image)
    (hi : ∀ (m : Nat) (b : Band), (bands a)[m]? = some b → ∃ img : Image, imgs[m]? = some img ∧ img.nlines = groupsOf a.family * perGroup b) :
    iterations (code a) imgs = groupsOf a.family := by
  obtain ⟨f, i, v, w, r⟩ := a
  cases f <;> cases i <;> cases v <;> cases w <;> cases r <;> first
    | (exact absurd h (by decide))
    | (obtain ⟨i0, h0, n0⟩ := hi 0 _ rfl
       unfold iterations
       rw [h0, Option.getD_some, n0]
       rfl)
    | (obtain ⟨i0, h0, n0⟩ := hi 0 _ rfl
       obtain ⟨i1, h1, n1⟩ := hi 1 _ rfl
       unfold iterations
       rw [h0, h1, Option.getD_some, Option.getD_some, n0, n1]
       rfl)

/-- What the caller sees of the images `pix`. -/
def Shows (f : Format) (bs : List Band) (pix : Nat → Nat → Bytes) (imgs : List Image) : Prop :=
  imgs.length = bs.length ∧ ∀ (k : Nat) (b : Band), bs[k]? = some b → ∃ img : Image, imgs[k]? = some img ∧
    img.nlines = groupsOf f * perGroup b ∧ img.npixels = width f * perGroup b ∧
    ∀ j : Nat, j < img.nlines → getLine img j = .ok (some (readLine f b (pix k j)))

theorem readImages_chain (tec : Bool) (lab : Label) (a : Announced) (ha : announced lab = some a) (hd : disseminated a = true)
    (pix : Nat → Nat → Bytes) (s t : In) (buf : Bytes) (hc : Chain tec a.family s (imageLines a.family (bands a) pix) t) :
    ∃ imgs, readImages false tec (idOf a.family) lab s buf = .ok imgs ∧ Shows a.family (bands a) pix imgs := by
  have hcode := C35_code lab
  rw [ha] at hcode
  dsimp only at hcode
  obtain ⟨himg, hdim⟩ := (C35_images lab a ha (code a) hcode).1 hd
  obtain ⟨imgs, hmk, hlen, hgood⟩ := makeImages_good a.family pix (bands a) 0 hdim
  simp only [Nat.zero_add] at hgood
  have hit : iterations (code a) imgs = groupsOf a.family := iterations_code a hd imgs (by
    intro m b hm
    obtain ⟨img, h1, h2⟩ := hgood m b hm
    exact ⟨img, h1, h2.1.nli⟩)
  unfold imageLines at hc
  rw [List.range_eq_range'] at hc
  obtain ⟨imgs', buf', hloop, hlen', hgood'⟩ := loop_groups tec a.family pix (bands a) t (groupsOf a.family) 0 imgs s buf (by omega)
    hgood hc
  obtain ⟨g, hgeo, _⟩ := C35_centre lab a ha (code a) hcode hd
  refine ⟨imgs', ?_, by rw [hlen', hlen], ?_⟩
  · unfold readImages
    rw [hcode, Outcome.ok_bind, himg, Outcome.ok_bind, hmk, Outcome.ok_bind, steps_code a hd, hit, hloop, Outcome.ok_bind, hgeo]
    rfl
  · intro k b hk
    obtain ⟨img, h1, wf, rows⟩ := hgood' k b hk
    refine ⟨img, h1, wf.nli, wf.np, ?_⟩
    intro j hj
    rw [wf.nli] at hj
    rw [getLine_wf wf hj, rows j hj, if_pos]
    rw [Nat.zero_add, Nat.mul_comm]
    exact hj

/-! ### The header -/

theorem part_frame_start (id : UInt8) (p : Bytes) (n : Nat) (hn : n ≤ 360) : part (frame id (p.take 360)) 4 n = part p 0 n := by
  have := part_frame id (p.take 360) 0 n
  rw [part_take _ _ _ _ (by omega)] at this
  exact this

/-- The header of a good file is read: all depends on the interpretation data, which are read last. -/
theorem header_frames (L : Nat) (f : Format) (h : Header) (hs : h.Sized f) (hk : knownIdent h.ident) (utcoff : Int) (rest : Bytes) :
    ∃ lab ident, readLabel false h.label = .ok lab ∧ announced lab = announces h.label ∧ readIdent false utcoff h.ident = .ok ident ∧
      readHeader L false false utcoff ⟨headerFrames f h ++ rest, false⟩ = (readInterp L false h.interp >>= fun interp =>
        .ok ((idOf f, lab, h.seed, ident, interp),
          frame (idOf f) (((h.label ++ h.seed ++ h.ident ++ h.interp ++ h.keys).drop 1080).take 360),
          ⟨frames (idOf f) (framesOf f - 4) ((h.label ++ h.seed ++ h.ident ++ h.interp ++ h.keys).drop 1440) ++ rest, false⟩)) := by
  obtain ⟨l1, l2, l3, l4, l5⟩ := hs
  obtain ⟨lab, hlab, hlab', hann⟩ := readLabel_bytes h.label (h.seed ++ h.ident ++ h.interp.take 280) l1
  obtain ⟨ident, hid⟩ := readIdent_known utcoff h.ident l3 hk
  refine ⟨lab, ident, hlab, hann, hid, ?_⟩
  unfold headerFrames
  generalize hq : h.label ++ h.seed ++ h.ident ++ h.interp ++ h.keys = q
  have hlen : q.length = 360 * framesOf f := by
    rw [← hq]; simp only [List.length_append, l1, l2, l3, l4, l5]
    cases f <;> rfl
  have q0 : q.take 360 = h.label ++ (h.seed ++ h.ident ++ h.interp.take 280) := by
    rw [← hq, List.append_assoc _ _ h.keys, List.take_append, List.take_of_length_le (by simp only [List.length_append]; omega),
      List.take_append_of_le_length (by simp only [List.length_append]; omega)]
    simp only [List.length_append, l1, l2, l3, List.append_assoc]
  have qi : part q 80 1360 = h.interp := by
    rw [← hq, part, List.append_assoc _ _ h.keys, drop_app (by simp only [List.length_append, l1, l2, l3]), take_app l4]
  have hlab1 : readLabel false ((frame (idOf f) (q.take 360)).drop 4) = .ok lab := by
    show readLabel false (q.take 360) = _
    rw [q0]; exact hlab'
  have hid1 : readIdent false utcoff ((frame (idOf f) (q.take 360)).drop 36) = .ok ident := by
    show readIdent false utcoff ((q.take 360).drop 32) = _
    rw [q0, show h.label ++ (h.seed ++ h.ident ++ h.interp.take 280) = (h.label ++ h.seed) ++ (h.ident ++ h.interp.take 280) by
      simp only [List.append_assoc], drop_app (by rw [List.length_append, l1, l2]), readIdent_bytes _ _ _ l3]
    exact hid
  have hseed : part (frame (idOf f) (q.take 360)) 28 8 = h.seed := by
    have := part_frame (idOf f) (q.take 360) 24 8
    rw [this, q0, part, drop_app l1, List.append_assoc, take_app l2]
  have pk := part_frame_start (idOf f)
  have p0 : part (frame (idOf f) (q.take 360)) 84 280 = part q 80 280 := by
    have := part_frame (idOf f) (q.take 360) 80 280
    rw [this, part_take _ _ _ _ (by omega)]
  have hinterp : part (frame (idOf f) (q.take 360)) 84 280 ++ part (frame (idOf f) ((q.drop 360).take 360)) 4 360 ++
      part (frame (idOf f) ((q.drop 720).take 360)) 4 360 ++ part (frame (idOf f) ((q.drop 1080).take 360)) 4 360 = h.interp := by
    rw [p0, pk _ _ (by omega), pk _ _ (by omega), pk _ _ (by omega), part_drop, part_drop, part_drop, ← qi,
      part_append q 80 280 360, part_append q 80 640 360, part_append q 80 1000 360]
  have hn : framesOf f = (framesOf f - 4) + 1 + 1 + 1 + 1 := by cases f <;> rfl
  unfold readHeader
  rw [if_neg (by simp)]
  have h4 : 1440 ≤ q.length := by rw [hlen]; cases f <;> decide
  rw [hn, getbuff_frames _ _ _ _ (by omega), Outcome.ok_bind]
  dsimp only
  rw [hlab1, Outcome.ok_bind, hid1, Outcome.ok_bind, getbuff_frames _ _ _ _ (by simp only [List.length_drop]; omega), Outcome.ok_bind]
  dsimp only
  rw [getbuff_frames _ _ _ _ (by simp only [List.length_drop]; omega), Outcome.ok_bind]
  dsimp only
  rw [getbuff_frames _ _ _ _ (by simp only [List.length_drop]; omega), Outcome.ok_bind]
  dsimp only
  simp only [List.drop_drop, Nat.reduceAdd]
  rw [hinterp, hseed, ← hn]
  rfl

/-- The header of a good file is read, and then the keys. -/
theorem header_good (f : Format) (h : Header) (hs : h.Sized f) (hk : knownIdent h.ident) (utcoff : Int) (rest : Bytes) :
    ∃ lab ident interp fr s, readHeader 4 false false utcoff ⟨headerFrames f h ++ rest, false⟩ =
        .ok ((idOf f, lab, h.seed, ident, interp), fr, s) ∧
      readLabel false h.label = .ok lab ∧ announced lab = announces h.label ∧ readIdent false utcoff h.ident = .ok ident ∧
      readInterp 4 false h.interp = .ok interp ∧
      ∃ keys, readKeysOf false false (idOf f) fr s = .ok (keys, some ⟨rest, false⟩) ∧
        (f = .A → ∃ ks, readKeys h.keys = .ok ks ∧ keys = some ks) ∧ (f ≠ .A → keys = none) := by
  obtain ⟨lab, ident, hlab, hann, hid, head⟩ := header_frames 4 f h hs hk utcoff rest
  obtain ⟨l1, l2, l3, l4, l5⟩ := hs
  obtain ⟨interp, hint⟩ := readInterp_ok h.interp l4
  rw [hint, Outcome.ok_bind] at head
  refine ⟨lab, ident, interp, _, _, head, hlab, hann, hid, hint, ?_⟩
  generalize hq : h.label ++ h.seed ++ h.ident ++ h.interp ++ h.keys = q
  by_cases hf : f = .A
  · subst hf
    rw [if_pos rfl] at l5
    have h8 : q.length = 2880 := by
      rw [← hq]; simp only [List.length_append, l1, l2, l3, l4, l5]
    have qk : part q 1440 1440 = h.keys := by
      rw [← hq, part, drop_app (by simp only [List.length_append, l1, l2, l3, l4]), List.take_of_length_le (Nat.le_of_eq l5)]
    obtain ⟨ks, hks⟩ := readKeysFrom_ok 120 h.keys (by omega)
    refine ⟨some ks, ?_, fun _ => ⟨ks, hks, rfl⟩, fun hne => absurd rfl hne⟩
    unfold readKeysOf
    rw [show idOf .A = 112 from rfl, if_pos rfl, if_neg (by simp), show framesOf .A - 4 = 4 from rfl]
    rw [getbuff_frames _ _ _ _ (by simp only [List.length_drop]; omega), Outcome.ok_bind]
    dsimp only
    rw [getbuff_frames _ _ _ _ (by simp only [List.length_drop]; omega), Outcome.ok_bind]
    dsimp only
    rw [getbuff_frames _ _ _ _ (by simp only [List.length_drop]; omega), Outcome.ok_bind]
    dsimp only
    rw [getbuff_frames _ _ _ _ (by simp only [List.length_drop]; omega), Outcome.ok_bind]
    dsimp only
    have pk := part_frame_start 112
    rw [pk _ _ (by omega), pk _ _ (by omega), pk _ _ (by omega), pk _ _ (by omega)]
    simp only [List.drop_drop, part_drop, Nat.reduceAdd]
    rw [part_append q 1440 360 360, part_append q 1440 720 360, part_append q 1440 1080 360, qk]
    unfold readKeys
    rw [hks]
    rfl
  · refine ⟨none, ?_, fun h => absurd h hf, fun _ => rfl⟩
    have h0 : framesOf f - 4 = 0 := by cases f <;> first | rfl | exact absurd rfl hf
    unfold readKeysOf
    rw [if_neg (by cases f <;> first | decide | exact absurd rfl hf), h0]
    rfl

/-- From the lines that the stream gives to the whole file. -/
theorem read_good (a : Announced) (hd : disseminated a = true) (h : Header) (hs : h.Sized a.family)
    (hl : announces h.label = some a) (hk : knownIdent h.ident) (pix : Nat → Nat → Bytes) (rest : Bytes) (t : In)
    (hc : Chain false a.family ⟨rest, false⟩ (imageLines a.family (bands a) pix) t) (utcoff : Int) (buf : Bytes) :
    ∃ F imgs, readfrom 4 false false utcoff buf (headerFrames a.family h ++ rest) = .ok F ∧
      readLabel false h.label = .ok F.label ∧ F.seed = h.seed ∧ readIdent false utcoff h.ident = .ok F.ident ∧
      readInterp 4 false h.interp = .ok F.interp ∧ (a.family = .A → ∃ ks, readKeys h.keys = .ok ks ∧ F.keys = some ks) ∧
      F.images = some imgs ∧ Shows a.family (bands a) pix imgs := by
  obtain ⟨lab, ident, interp, fr, s, hh, h1, h2, h3, h4, keys, hkeys, hA, -⟩ := header_good a.family h hs hk utcoff rest
  have hann : announced lab = some a := by rw [h2, hl]
  obtain ⟨imgs, hi, hshow⟩ := readImages_chain false lab a hann hd pix _ _ buf hc
  refine ⟨⟨lab, h.seed, ident, interp, keys, some imgs⟩, imgs, ?_, h1, rfl, h3, h4, hA, rfl, hshow⟩
  unfold readfrom
  rw [hh, Outcome.ok_bind]
  dsimp only
  rw [hkeys, Outcome.ok_bind]
  dsimp only
  rw [hi]
  rfl

theorem bands_dims (a : Announced) (hd : disseminated a = true) (b : Band) (hb : b ∈ bands a) :
    dims a.family b = some (width a.family * perGroup b, groupsOf a.family * perGroup b) := by
  obtain ⟨f, i, v, w, r⟩ := a
  revert hb hd
  cases f <;> cases i <;> cases v <;> cases w <;> cases r <;> cases b <;> decide

/-! ### The property -/

/-- A complete file of any disseminated format is read: label, seed, identification, interpretation data and keys are those of its first
subframe, and every line of every image is the one in the file, in the order of the format; what the library did before (`buf`) and what
follows the last line do not matter.  Missing for C73: the visible images at full resolution, of which `readLine` puts the second half of
every line two pixels early (see C33); machines on which `unsigned long` has eight bytes (see `C73_violated_long`). -/
theorem C73_images_partial (a : Announced) (hd : disseminated a = true) (h : Header) (hs : h.Sized a.family)
    (hl : announces h.label = some a) (hk : knownIdent h.ident) (pix : Nat → Nat → Bytes) (ss : List Sub)
    (hss : ∀ s ∈ ss, s.Sized a.family) (hpix : ss.map (·.line) = imageLines a.family (bands a) pix)
    (utcoff : Int) (buf rest : Bytes) :
    ∃ F imgs, readfrom 4 false false utcoff buf (fileBytes a.family h ss ++ rest) = .ok F ∧
      readLabel false h.label = .ok F.label ∧ F.seed = h.seed ∧ readIdent false utcoff h.ident = .ok F.ident ∧
      readInterp 4 false h.interp = .ok F.interp ∧ (a.family = .A → ∃ ks, readKeys h.keys = .ok ks ∧ F.keys = some ks) ∧
      F.images = some imgs ∧ imgs.length = (bands a).length ∧
      ∀ (k : Nat) (b : Band), (bands a)[k]? = some b → ∃ img : Image, imgs[k]? = some img ∧ dims a.family b = some (img.npixels, img.nlines) ∧
        ∀ j : Nat, j < img.nlines → getLine img j = .ok (some (readLine a.family b (pix k j))) ∧
          (b ≠ .VIS → getLine img j = .ok (some ((pix k j).map some))) := by
  have hc := chain_subs a.family rest ss hss
  rw [hpix] at hc
  obtain ⟨F, imgs, e, h1, h2, h3, h4, h5, h6, hlen, hshow⟩ := read_good a hd h hs hl hk pix _ _ hc utcoff buf
  refine ⟨F, imgs, ?_, h1, h2, h3, h4, h5, h6, hlen, ?_⟩
  · rw [fileBytes, List.append_assoc]; exact e
  · intro k b hb
    obtain ⟨img, e, n1, n2, r⟩ := hshow k b hb
    refine ⟨img, e, ?_, fun j hj => ⟨r j hj, fun hv => ?_⟩⟩
    · rw [bands_dims a hd b (List.mem_of_getElem? hb), n1, n2]
    · rw [r j hj, readLine, if_neg hv]

/-! ### Concrete files -/

/-- Wraps lines in subframes. -/
def wrap (f : Format) (l : Bytes) : Sub :=
  ⟨List.replicate (if f = .A then 64 else 32) 0, l, List.replicate (if f = .A then 316 else 158) 0⟩

/-- The label of a file with infrared and visible images. -/
def aLabel (format visS ir wv : UInt8) : Bytes :=
  [0, 8, 0, 1, 0, 1, 0, 1, 0, 0, 4, 210, format, visS, 0, ir, wv, 0, 0, 0, 0, 0, 0, 0]

/-- METEOSAT-7 on the 32nd day of 2002, 12:30. -/
def anIdent : Bytes := [212, 247, 7, 210, 0, 32, 4, 206] ++ List.replicate 40 0

/-- All the parts of a header. -/
def aHeader (f : Format) (label : Bytes) : Header :=
  ⟨label, List.replicate 8 1, anIdent, List.replicate 1360 48, List.replicate (if f = .A then 1440 else 0) 2⟩

/-- Files of the format B with infrared and visible images: any images of the sizes of the format. -/
example (pix : Nat → Nat → Bytes) (hpix : ∀ k j, (pix k j).length = 1250 * (k + 1)) :
    let a : Announced := ⟨.B, true, true, false, false⟩
    let ss := (imageLines .B (bands a) pix).map (wrap .B)
    disseminated a = true ∧ (aHeader .B (aLabel 255 1 1 0)).Sized .B ∧ announces (aHeader .B (aLabel 255 1 1 0)).label = some a ∧
      knownIdent (aHeader .B (aLabel 255 1 1 0)).ident ∧ (∀ s ∈ ss, s.Sized .B) ∧ ss.map (·.line) = imageLines .B (bands a) pix := by
  refine ⟨rfl, ⟨rfl, rfl, rfl, List.length_replicate, rfl⟩, by decide, by unfold knownIdent; decide, ?_, ?_⟩
  · intro s hs
    simp only [List.mem_map, imageLines, List.mem_flatMap, List.mem_range] at hs
    obtain ⟨l, ⟨i, _, hl⟩, rfl⟩ := hs
    refine ⟨List.length_replicate, ?_, List.length_replicate⟩
    show l.length = 1250
    have p0 := hpix 0
    have p1 := hpix 1
    simp only [show bands ⟨.B, true, true, false, false⟩ = [.IR, .VIS] from rfl, group, pieces, if_true, reduceCtorEq, if_false,
      List.append_nil, List.cons_append, List.nil_append, List.mem_cons, List.not_mem_nil, or_false, width, Nat.zero_add] at hl
    rcases hl with rfl | rfl | rfl | rfl | rfl <;> simp [p0, p1]
  · simp [wrap, Function.comp_def]

/-! ### Files that are not complete -/

theorem part_zeros (m off n : Nat) (h : off + n ≤ m) : part (List.replicate m 0) off n = List.replicate n 0 := by
  unfold part
  rw [List.drop_replicate, List.take_replicate, Nat.min_eq_left (by omega)]

theorem getbuff_end (b : Bool) : getbuff false ⟨[], b⟩ = .ok (List.replicate 364 0, ⟨[], true⟩) := by
  have h : In.read ⟨[], b⟩ (List.replicate 364 0) 364 = (List.replicate 364 0, ⟨[], true⟩) := by cases b <;> rfl
  unfold getbuff
  rw [h]
  rfl

theorem overwrite_zeros (b : Bytes) (a n : Nat) :
    overwrite (List.replicate a 0 ++ b.drop a) a (List.replicate n 0) = List.replicate (a + n) 0 ++ b.drop (a + n) := by
  rw [overwrite_at _ _ _ _ List.length_replicate, List.length_replicate, List.drop_drop, List.replicate_append_replicate]

/-- At the end of the file there are zeros. -/
theorem dataline_end (f : Format) (b : Bool) (buf : Bytes) :
    dataline false false (idOf f) ⟨[], b⟩ buf = .ok (List.replicate (width f) 0 ++ buf.drop (width f), ⟨[], true⟩) := by
  unfold dataline
  rw [if_neg (by simp)]
  unfold getDataline
  have z := overwrite_zeros buf
  have z0 : ∀ n, overwrite buf 0 (List.replicate n 0) = List.replicate n 0 ++ buf.drop n := by
    intro n; rw [overwrite_zero, List.length_replicate]
  by_cases hf : f = .A
  · subst hf
    rw [show idOf .A = 112 from rfl, show width .A = 2500 from rfl, if_pos rfl]
    simp only [getbuff_end, Outcome.ok_bind]
    rw [part_zeros 364 68 296 (by omega), part_zeros 364 4 360 (by omega), part_zeros 364 4 44 (by omega)]
    have z1 := z 296 360
    have z2 := z 656 360
    have z3 := z 1016 360
    have z4 := z 1376 360
    have z5 := z 1736 360
    have z6 := z 2096 360
    have z7 := z 2456 44
    simp only [Nat.reduceAdd] at z1 z2 z3 z4 z5 z6 z7
    rw [z0, z1, z2, z3, z4, z5, z6, z7]
    rfl
  · have hid : idOf f = 48 := by cases f <;> first | rfl | exact absurd rfl hf
    have hw : width f = 1250 := by cases f <;> first | rfl | exact absurd rfl hf
    rw [hid, hw, if_neg (by decide), if_pos rfl]
    simp only [getbuff_end, Outcome.ok_bind]
    rw [part_zeros 364 36 328 (by omega), part_zeros 364 4 360 (by omega), part_zeros 364 4 202 (by omega)]
    have z1 := z 328 360
    have z2 := z 688 360
    have z3 := z 1048 202
    simp only [Nat.reduceAdd] at z1 z2 z3
    rw [z0, z1, z2, z3]
    rfl

theorem chain_end (f : Format) (ls : List Bytes) (h : ∀ l ∈ ls, l = List.replicate (width f) 0) :
    ∀ b, ∃ t, Chain false f ⟨[], b⟩ ls t := by
  induction ls with
  | nil => intro b; exact ⟨_, .nil _⟩
  | cons l ls ih =>
    intro b
    have hl := h l List.mem_cons_self
    subst hl
    obtain ⟨t, ht⟩ := ih (fun l hl => h l (List.mem_cons_of_mem _ hl)) true
    exact ⟨t, .cons _ ⟨[], true⟩ _ _ _ List.length_replicate (fun buf => dataline_end f b buf) ht⟩

theorem group_black (f : Format) (pix : Nat → Nat → Bytes) (i : Nat) (bs : List Band) : ∀ k,
    (∀ m b, bs[m]? = some b → ∀ j, perGroup b * i ≤ j → pix (k + m) j = List.replicate (width f * perGroup b) 0) →
    ∀ l ∈ group f pix i k bs, l = List.replicate (width f) 0 := by
  induction bs with
  | nil => intro k _ l hl; simp [group] at hl
  | cons b bs ih =>
    intro k h l hl
    rw [group, List.mem_append] at hl
    rcases hl with hl | hl
    · have h0 := h 0 b rfl
      rw [Nat.add_zero] at h0
      by_cases hb : b = .VIS
      · subst hb
        rw [if_pos rfl] at hl
        simp only [show perGroup .VIS = 2 from rfl] at h0
        simp only [pieces, if_true, h0 (2 * i) (by omega), h0 (2 * i + 1) (by omega), List.cons_append, List.nil_append, List.mem_cons,
          List.not_mem_nil, or_false, List.take_replicate, List.drop_replicate] at hl
        rw [Nat.min_eq_left (by omega), show width f * 2 - width f = width f by omega] at hl
        rcases hl with rfl | rfl | rfl | rfl <;> rfl
      · rw [if_neg hb, pieces, if_neg hb, List.mem_singleton] at hl
        have hp : perGroup b = 1 := if_neg hb
        rw [hp] at h0
        rw [hl, h0 i (by omega), Nat.mul_one]
    · refine ih (k + 1) (fun m b' hm j hj => ?_) l hl
      have := h (m + 1) b' hm j hj
      rwa [show k + (m + 1) = k + 1 + m by omega] at this

/-- A file that ends after some of the groups of lines, or after the header, is accepted: what is missing is black, and nothing tells
it from a complete file with black lines. -/
theorem C73_violated_truncated (a : Announced) (hd : disseminated a = true) (h : Header) (hs : h.Sized a.family)
    (hl : announces h.label = some a) (hk : knownIdent h.ident) (pix : Nat → Nat → Bytes) (g : Nat) (hg : g < groupsOf a.family)
    (ss : List Sub) (hss : ∀ s ∈ ss, s.Sized a.family)
    (hpix : ss.map (·.line) = (List.range g).flatMap fun i => group a.family pix i 0 (bands a))
    (black : ∀ k b, (bands a)[k]? = some b → ∀ j, perGroup b * g ≤ j → pix k j = List.replicate (width a.family * perGroup b) 0)
    (utcoff : Int) (buf : Bytes) :
    ∃ F imgs, readfrom 4 false false utcoff buf (fileBytes a.family h ss) = .ok F ∧
      (readLabel false h.label = .ok F.label ∧ readIdent false utcoff h.ident = .ok F.ident ∧ readInterp 4 false h.interp = .ok F.interp) ∧
      F.images = some imgs ∧ Shows a.family (bands a) pix imgs := by
  have hc := chain_subs a.family [] ss hss
  rw [hpix] at hc
  obtain ⟨t, ht⟩ := chain_end a.family ((List.range' g (groupsOf a.family - g)).flatMap fun i => group a.family pix i 0 (bands a)) (by
    intro l hl
    obtain ⟨i, hi, hl⟩ := List.mem_flatMap.mp hl
    have hgi : g ≤ i := (List.mem_range'_1.mp hi).1
    refine group_black a.family pix i (bands a) 0 (fun m b hm j hj => ?_) l hl
    rw [Nat.zero_add]
    exact black m b hm j (Nat.le_trans (Nat.mul_le_mul_left _ hgi) hj)) false
  have hall := hc.append ht
  rw [← List.flatMap_append, List.range_eq_range'] at hall
  have hall' : Chain false a.family ⟨(ss.map (subFrames a.family)).flatten ++ [], false⟩ (imageLines a.family (bands a) pix) t := by
    unfold imageLines
    rw [List.range_eq_range']
    have e : List.range' 0 g ++ List.range' g (groupsOf a.family - g) = List.range' 0 (groupsOf a.family) := by
      have := @List.range'_append_1 0 g (groupsOf a.family - g)
      rw [Nat.zero_add, show g + (groupsOf a.family - g) = groupsOf a.family by omega] at this
      exact this
    rw [← e]
    exact hall
  obtain ⟨F, imgs, e, h1, -, h3, h4, -, h6, hshow⟩ := read_good a hd h hs hl hk pix _ _ hall' utcoff buf
  rw [List.append_nil] at e
  exact ⟨F, imgs, e, ⟨h1, h3, h4⟩, h6, hshow⟩

/-- A header of the format B with infrared and visible images, and nothing else: all the images are black. -/
example (utcoff : Int) (buf : Bytes) :
    ∃ F imgs, readfrom 4 false false utcoff buf (fileBytes .B (aHeader .B (aLabel 255 1 1 0)) []) = .ok F ∧ F.images = some imgs ∧
      Shows .B [.IR, .VIS] (fun k _ => List.replicate (1250 * (k + 1)) 0) imgs := by
  suffices H : _ by
    obtain ⟨F, imgs, e, -, h6, hshow⟩ := C73_violated_truncated ⟨.B, true, true, false, false⟩ rfl (aHeader .B (aLabel 255 1 1 0))
      ⟨rfl, rfl, rfl, List.length_replicate, rfl⟩ (by decide) (by unfold knownIdent; decide) (fun k _ => List.replicate (1250 * (k + 1)) 0) 0
      (by decide) [] (by simp) rfl H utcoff buf
    exact ⟨F, imgs, e, h6, hshow⟩
  intro k b hb j _
  match k, hb with
  | 0, hb => injection hb with hb; subst hb; rfl
  | 1, hb => injection hb with hb; subst hb; rfl

/-! ### Synchronisation -/

/-- A file whose first frame has none of the synchronisation marks is refused. -/
theorem C73_refused (L : Nat) (utcoff : Int) (buf file : Bytes) (hlen : 364 ≤ file.length)
    (h1 : file.take 2 ≠ [0x05, 0x0C]) (h2 : file[2]? ≠ some 0xDF) : readfrom L false false utcoff buf file = .terminate := by
  have hget : getbuff false ⟨file, false⟩ = .terminate := by
    have e := read_app (file.take 364) (file.drop 364) (List.replicate 364 0) 364 (by rw [List.length_take]; omega)
    rw [List.take_append_drop, List.drop_of_length_le (Nat.le_of_eq List.length_replicate), List.append_nil] at e
    unfold getbuff
    rw [e]
    dsimp only
    rw [if_neg (by simp), if_neg]
    match file, hlen, h1, h2 with
    | b0 :: b1 :: b2 :: b3 :: r, _, h1, h2 =>
      have e1 : ¬ (b0 = 5 ∧ b1 = 12) := by simpa using h1
      have e2 : b2 ≠ 0xDF := by simpa using h2
      have l0 := b0.toNat_lt
      have l1 := b1.toNat_lt
      have l2 := b2.toNat_lt
      have hn1 : b1.toNat * 256 + b0.toNat ≠ 0x0C05 := by
        intro e
        exact e1 ⟨UInt8.toNat_inj.mp (by show _ = 5; omega), UInt8.toNat_inj.mp (by show _ = 12; omega)⟩
      have hn2 : (b3.toNat * 256 + b2.toNat) &&& 255 ≠ 0xDF := by
        rw [show (255 : Nat) = 2 ^ 8 - 1 from rfl, Nat.and_two_pow_sub_one_eq_mod]
        intro e
        exact e2 (UInt8.toNat_inj.mp (by show _ = 0xDF; omega))
      simp only [syncOk, List.take_succ_cons, List.take_zero, List.drop_succ_cons, List.drop_zero, load, Bool.false_eq_true, if_false,
        List.reverse_cons, List.reverse_nil, List.nil_append, List.cons_append, List.foldl_cons, List.foldl_nil, Nat.zero_mul, Nat.zero_add]
      simpa using And.intro hn1 hn2
  unfold readfrom readHeader
  rw [if_neg (by simp), hget]
  rfl

example : 364 ≤ (List.replicate 400 (7 : UInt8)).length ∧ (List.replicate 400 (7 : UInt8)).take 2 ≠ [0x05, 0x0C] ∧
    (List.replicate 400 (7 : UInt8))[2]? ≠ some 0xDF :=
  ⟨by rw [List.length_replicate]; omega, by rw [List.take_replicate]; decide, by rw [List.getElem?_replicate]; decide⟩

/-- One of the two marks is enough: with the third byte right, whatever the first two bytes of a file are, it is read in the same way. -/
theorem C73_violated_sync (L : Nat) (utcoff : Int) (buf : Bytes) (x y id : UInt8) (rest : Bytes) (hlen : 360 ≤ rest.length) :
    readfrom L false false utcoff buf (x :: y :: 0xDF :: id :: rest) =
      readfrom L false false utcoff buf (0x05 :: 0x0C :: 0xDF :: id :: rest) := by
  have hget : ∀ x y : UInt8, getbuff false ⟨x :: y :: 0xDF :: id :: rest, false⟩ =
      .ok (x :: y :: 0xDF :: id :: rest.take 360, ⟨rest.drop 360, false⟩) := by
    intro x y
    have e := read_app (x :: y :: 0xDF :: id :: rest.take 360) (rest.drop 360) (List.replicate 364 0) 364
      (by simp only [List.length_cons, List.length_take]; omega)
    rw [show (x :: y :: 0xDF :: id :: rest.take 360) ++ rest.drop 360 = x :: y :: 0xDF :: id :: rest by simp] at e
    unfold getbuff
    rw [e, List.drop_of_length_le (Nat.le_of_eq List.length_replicate), List.append_nil]
    dsimp only
    rw [if_neg (by simp), if_pos]
    have : (id.toNat * 256 + 223) &&& 255 = 223 := by
      rw [show (255 : Nat) = 2 ^ 8 - 1 from rfl, Nat.and_two_pow_sub_one_eq_mod]
      omega
    simp [syncOk, load, this]
  unfold readfrom readHeader
  simp only [hget, Bool.false_eq_true, if_false, Outcome.ok_bind, part, List.drop_succ_cons, List.getElem?_cons_succ]

/-! ### Machines with 64 bits -/

theorem readMembers_long (hsi : Bytes) (ms : List (String × Kind × Nat)) (h : ∀ m ∈ ms, m.2.2 + m.2.1.size ≤ hsi.length)
    (h8 : ∃ m ∈ ms, m.2.1 = .r8) : readInterp.readMembers 8 false hsi ms = .ub := by
  induction ms with
  | nil => obtain ⟨m, hm, _⟩ := h8; cases hm
  | cons m ms ih =>
    obtain ⟨name, kind, off⟩ := m
    unfold readInterp.readMembers
    by_cases hk : kind = .r8 ∨ kind = .r4
    · have : readValue 8 false kind (hsi.drop off) = .ub := by
        rcases hk with rfl | rfl
        · unfold readValue; rw [(C34_violated_long _).2]; rfl
        · unfold readValue; rw [(C34_violated_long _).1]; rfl
      rw [this]
      rfl
    · have e : readValue 8 false kind (hsi.drop off) = readValue 4 false kind (hsi.drop off) := by
        cases kind <;> first | exact absurd (Or.inl rfl) hk | exact absurd (Or.inr rfl) hk | rfl
      obtain ⟨v, hv⟩ := readValue_ok kind (hsi.drop off) (by
        have := h _ List.mem_cons_self
        rw [List.length_drop]
        dsimp only at this
        omega)
      rw [e, hv, Outcome.ok_bind, ih (fun m hm => h m (List.mem_cons_of_mem _ hm)) (by
        obtain ⟨m, hm, h8⟩ := h8
        rcases List.mem_cons.mp hm with rfl | hm
        · exact absurd (Or.inl h8) hk
        · exact ⟨m, hm, h8⟩)]
      rfl

/-- Where `unsigned long` has eight bytes, as on the usual 64 bit systems, every file with a good header is read with undefined behaviour
(see C34), whatever else is in it. -/
theorem C73_violated_long (f : Format) (h : Header) (hs : h.Sized f) (hk : knownIdent h.ident) (utcoff : Int) (buf rest : Bytes) :
    readfrom 8 false false utcoff buf (headerFrames f h ++ rest) = .ub := by
  obtain ⟨lab, ident, -, -, -, head⟩ := header_frames 8 f h hs hk utcoff rest
  unfold readfrom
  rw [head]
  unfold readInterp
  rw [readMembers_long h.interp members (by rw [hs.interp]; exact members_inside) (by decide +kernel)]
  rfl

/-! ### TECNAVIA files -/

theorem read_part (x rest buf : Bytes) (n : Nat) (h : n ≤ x.length) :
    In.read ⟨x ++ rest, false⟩ buf n = (x.take n ++ buf.drop n, ⟨x.drop n ++ rest, false⟩) := by
  have := read_app (x.take n) (x.drop n ++ rest) buf n (by rw [List.length_take]; omega)
  rwa [← List.append_assoc, List.take_append_drop] at this

theorem part_app (p q : Bytes) (off n : Nat) (h : off + n ≤ p.length) : part (p ++ q) off n = part p off n := by
  unfold part
  rw [List.drop_append_of_le_length (by omega), List.take_append_of_le_length (by rw [List.length_drop]; omega)]

theorem sync_good (id : UInt8) (x : Bytes) : syncOk false ([0x05, 0x0C, 0xDF, id] ++ x) = true := by
  simp [syncOk, load]

theorem modGetbuff_good (pre x rest : Bytes) (off : Nat) (id : UInt8) (h : pre.length = off)
    (hlen : 2048 ≤ (pre ++ ([0x05, 0x0C, 0xDF, id] ++ x)).length) (hoff : off + 4 ≤ 2048) :
    modGetbuff false ⟨pre ++ ([0x05, 0x0C, 0xDF, id] ++ x) ++ rest, false⟩ off =
      .ok ((pre ++ ([0x05, 0x0C, 0xDF, id] ++ x)).take 2048, ⟨(pre ++ ([0x05, 0x0C, 0xDF, id] ++ x)).drop 2048 ++ rest, false⟩) := by
  unfold modGetbuff
  rw [read_part _ _ _ _ hlen, List.drop_of_length_le (Nat.le_of_eq List.length_replicate), List.append_nil]
  dsimp only
  rw [if_neg (by simp), if_pos]
  have e : ∀ k : Nat, ([0x05, 0x0C, 0xDF, id] ++ x).take (4 + k) = [0x05, 0x0C, 0xDF, id] ++ x.take k := by
    intro k
    rw [List.take_append, List.take_of_length_le (by simp only [List.length_cons, List.length_nil]; omega)]
    congr 2
    simp only [List.length_cons, List.length_nil]; omega
  rw [List.drop_take, drop_app h, show 2048 - off = 4 + (2044 - off) by omega, e]
  exact sync_good id _

theorem dataline_tec (f : Format) (s : Sub) (hs : s.TecSized f) (rest buf : Bytes) :
    dataline true false (idOf f) ⟨tecSub f s ++ rest, false⟩ buf = .ok (s.line ++ buf.drop (width f), ⟨rest, false⟩) := by
  obtain ⟨h1, h2, h3⟩ := hs
  unfold dataline
  rw [if_pos rfl]
  unfold modGetDataline
  by_cases hf : f = .A
  · subst hf
    rw [if_pos rfl] at h1 h3
    rw [show idOf .A = 112 from rfl, show width .A = 2500 from rfl, if_pos rfl]
    replace h2 : s.line.length = 2500 := h2
    have hsub : tecSub .A s = [] ++ ([0x05, 0x0C, 0xDF, 112] ++ (s.head ++ s.line ++ s.tail)) := by
      simp [tecSub, idOf]
    have hlen : (tecSub .A s).length = 3072 := by
      simp only [tecSub, List.length_append, List.length_cons, List.length_nil]; omega
    have hline : part (tecSub .A s) 388 2500 = s.line := by
      unfold part tecSub
      rw [List.append_assoc _ s.line, drop_app (by simp only [List.length_append, List.length_cons, List.length_nil]; omega), take_app h2]
    have hm := modGetbuff_good [] (s.head ++ s.line ++ s.tail) rest 0 112 rfl (by rw [← hsub, hlen]; omega) (by omega)
    rw [← hsub] at hm
    generalize tecSub .A s = x at hm hlen hline
    rw [hm, Outcome.ok_bind]
    dsimp only
    rw [read_part _ _ _ _ (by rw [List.length_drop]; omega)]
    dsimp only
    rw [if_neg (by simp), part_app _ _ 0 840 (by simp only [List.length_take, List.length_drop]; omega), part_take _ 0 840 1024 (by omega),
      part_take _ _ _ _ (by omega), part_drop, overwrite_zero, part_length _ _ _ (by omega)]
    have := overwrite_part x buf 388 1660 840 (by omega)
    simp only [Nat.reduceAdd] at this ⊢
    rw [this, hline, List.drop_drop, List.drop_of_length_le (l := x) (by omega)]
    rfl
  · rw [if_neg hf] at h1 h3
    have hid : idOf f = 48 := by cases f <;> first | rfl | exact absurd rfl hf
    have hw : width f = 1250 := by cases f <;> first | rfl | exact absurd rfl hf
    rw [hid, hw, if_neg (by decide), if_pos rfl]
    rw [hw] at h2
    have hsub : tecSub f s = [0x05, 0x0C, 0xDF, 48] ++ (s.head ++ s.line ++ s.tail) := by
      simp [tecSub, hid]
    have hlen : (tecSub f s).length = 1536 := by
      simp only [tecSub, List.length_append, List.length_cons, List.length_nil]; omega
    have hline : part (tecSub f s) 196 1250 = s.line := by
      unfold part tecSub
      rw [List.append_assoc _ s.line, drop_app (by simp only [List.length_append, List.length_cons, List.length_nil]; omega), take_app h2]
    have hg : getbuff false ⟨tecSub f s ++ rest, false⟩ = .ok ((tecSub f s).take 364, ⟨(tecSub f s).drop 364 ++ rest, false⟩) := by
      unfold getbuff
      rw [read_part _ _ _ _ (by omega), List.drop_of_length_le (Nat.le_of_eq List.length_replicate), List.append_nil]
      dsimp only
      rw [if_neg (by simp), if_pos]
      rw [hsub]
      exact sync_good 48 ((s.head ++ s.line ++ s.tail).take 360)
    generalize tecSub f s = x at hg hlen hline
    rw [hg, Outcome.ok_bind]
    dsimp only
    rw [read_part _ _ _ _ (by rw [List.length_drop]; omega)]
    dsimp only
    rw [if_neg (by simp), part_app _ _ 0 1082 (by simp only [List.length_take, List.length_drop]; omega), part_take _ 0 1082 1172 (by omega),
      part_take _ _ _ _ (by omega), part_drop, overwrite_zero, part_length _ _ _ (by omega)]
    have := overwrite_part x buf 196 168 1082 (by omega)
    simp only [Nat.reduceAdd] at this ⊢
    rw [this, hline, List.drop_drop, List.drop_of_length_le (l := x) (by omega)]
    rfl

theorem chain_tec (f : Format) (rest : Bytes) (ss : List Sub) (h : ∀ s ∈ ss, s.TecSized f) :
    Chain true f ⟨(ss.map (tecSub f)).flatten ++ rest, false⟩ (ss.map (·.line)) ⟨rest, false⟩ := by
  induction ss with
  | nil => exact .nil _
  | cons s ss ih =>
    have hs := h s List.mem_cons_self
    refine .cons _ ⟨(ss.map (tecSub f)).flatten ++ rest, false⟩ _ _ _ hs.line (fun buf => ?_)
      (ih fun s hs => h s (List.mem_cons_of_mem _ hs))
    rw [List.map_cons, List.flatten_cons, List.append_assoc]
    exact dataline_tec f s hs _ buf

/-- A complete TECNAVIA file of any disseminated format is read: label, seed, identification, interpretation data are those of its
header, and every line of every image is the one in the file.  Missing: the keys, which are not read (see `C73_violated_keys`), and what is
missing for the other files. -/
theorem C73_tecnavia_partial (a : Announced) (hd : disseminated a = true) (t : Tec) (hs : t.Sized a.family)
    (hl : announces t.header.label = some a) (hk : knownIdent t.header.ident) (pix : Nat → Nat → Bytes) (ss : List Sub)
    (hss : ∀ s ∈ ss, s.TecSized a.family) (hpix : ss.map (·.line) = imageLines a.family (bands a) pix)
    (utcoff : Int) (buf rest : Bytes) :
    ∃ F imgs, readfrom 4 false true utcoff buf (tecBytes a.family t ss ++ rest) = .ok F ∧
      readLabel false t.header.label = .ok F.label ∧ F.seed = t.header.seed ∧ readIdent false utcoff t.header.ident = .ok F.ident ∧
      readInterp 4 false t.header.interp = .ok F.interp ∧ F.images = some imgs ∧ imgs.length = (bands a).length ∧
      ∀ (k : Nat) (b : Band), (bands a)[k]? = some b → ∃ img : Image, imgs[k]? = some img ∧ dims a.family b = some (img.npixels, img.nlines) ∧
        ∀ j : Nat, j < img.nlines → getLine img j = .ok (some (readLine a.family b (pix k j))) ∧
          (b ≠ .VIS → getLine img j = .ok (some ((pix k j).map some))) := by
  obtain ⟨lp, l1, l2, l3, l4, l5⟩ := hs
  obtain ⟨pre, h, fill⟩ := t
  dsimp only at lp l1 l2 l3 l4 l5 hl hk ⊢
  generalize hf : a.family = f at *
  have hc := chain_tec f rest ss hss
  rw [hpix] at hc
  generalize hsubs : (ss.map (tecSub f)).flatten ++ rest = subs at hc
  obtain ⟨lab, hlab, hlab', hann⟩ := readLabel_bytes h.label (h.seed ++ h.ident ++ h.interp ++ fill.take 92) l1
  have hann' : announced lab = some a := by rw [hann, hl]
  obtain ⟨ident, hid⟩ := readIdent_known utcoff h.ident l3 hk
  obtain ⟨interp, hint⟩ := readInterp_ok h.interp l4
  subst hf
  obtain ⟨imgs, hi, hlen, hshow⟩ := readImages_chain true lab a hann' hd pix _ _ buf hc
  -- the header
  have hfill : 92 ≤ fill.length := by rw [l5]; split <;> omega
  have hx : pre ++ ([0x05, 0x0C, 0xDF, idOf a.family] ++ h.label ++ h.seed ++ h.ident ++ h.interp ++ fill) =
      pre ++ ([0x05, 0x0C, 0xDF, idOf a.family] ++ (h.label ++ h.seed ++ h.ident ++ h.interp ++ fill)) := by
    simp only [List.append_assoc]
  have hm := modGetbuff_good pre (h.label ++ h.seed ++ h.ident ++ h.interp ++ fill) subs 512 (idOf a.family) lp
    (by simp only [List.length_append, List.length_cons, List.length_nil]; omega) (by omega)
  have htake : (pre ++ ([0x05, 0x0C, 0xDF, idOf a.family] ++ (h.label ++ h.seed ++ h.ident ++ h.interp ++ fill))).take 2048 =
      pre ++ ([0x05, 0x0C, 0xDF, idOf a.family] ++ (h.label ++ (h.seed ++ h.ident ++ h.interp ++ fill.take 92))) := by
    rw [show pre ++ ([0x05, 0x0C, 0xDF, idOf a.family] ++ (h.label ++ h.seed ++ h.ident ++ h.interp ++ fill)) =
      (pre ++ [0x05, 0x0C, 0xDF, idOf a.family] ++ h.label ++ h.seed ++ h.ident ++ h.interp) ++ fill by simp only [List.append_assoc],
      List.take_append, List.take_of_length_le (by simp only [List.length_append, List.length_cons, List.length_nil]; omega)]
    simp only [List.length_append, List.length_cons, List.length_nil, lp, l1, l2, l3, l4, List.append_assoc]
  have hdrop : (pre ++ ([0x05, 0x0C, 0xDF, idOf a.family] ++ (h.label ++ h.seed ++ h.ident ++ h.interp ++ fill))).drop 2048 =
      fill.drop 92 := by
    rw [show pre ++ ([0x05, 0x0C, 0xDF, idOf a.family] ++ (h.label ++ h.seed ++ h.ident ++ h.interp ++ fill)) =
      (pre ++ [0x05, 0x0C, 0xDF, idOf a.family] ++ h.label ++ h.seed ++ h.ident ++ h.interp) ++ fill by simp only [List.append_assoc],
      List.drop_append, List.drop_of_length_le (by simp only [List.length_append, List.length_cons, List.length_nil]; omega), List.nil_append]
    simp only [List.length_append, List.length_cons, List.length_nil, lp, l1, l2, l3, l4]
  rw [htake, hdrop] at hm
  generalize hw : ([0x05, 0x0C, 0xDF, idOf a.family] ++ (h.label ++ (h.seed ++ h.ident ++ h.interp ++ fill.take 92)) : Bytes) = w at hm
  have w4 : w.drop 4 = h.label ++ (h.seed ++ h.ident ++ h.interp ++ fill.take 92) := by rw [← hw]; rfl
  have w3 : (w[3]?).getD 0 = idOf a.family := by rw [← hw]; rfl
  have w28 : part w 28 8 = h.seed := by
    rw [part, show 28 = 4 + 24 from rfl, ← List.drop_drop, w4, drop_app l1]
    simp only [List.append_assoc]
    rw [take_app l2]
  have w36 : readIdent false utcoff (w.drop 36) = .ok ident := by
    rw [show 36 = 4 + 32 from rfl, ← List.drop_drop, w4,
      show h.label ++ (h.seed ++ h.ident ++ h.interp ++ fill.take 92) = (h.label ++ h.seed) ++ (h.ident ++ (h.interp ++ fill.take 92)) by
        simp only [List.append_assoc], drop_app (by rw [List.length_append, l1, l2]), readIdent_bytes _ _ _ l3]
    exact hid
  have w84 : part w 84 1360 = h.interp := by
    rw [part, show 84 = 4 + 80 from rfl, ← List.drop_drop, w4,
      show h.label ++ (h.seed ++ h.ident ++ h.interp ++ fill.take 92) = (h.label ++ h.seed ++ h.ident) ++ (h.interp ++ fill.take 92) by
        simp only [List.append_assoc], drop_app (by simp only [List.length_append, l1, l2, l3]), take_app l4]
  have head : readHeader 4 false true utcoff ⟨tecBytes a.family ⟨pre, h, fill⟩ ss ++ rest, false⟩ =
      .ok ((idOf a.family, lab, h.seed, ident, interp), pre ++ w, ⟨fill.drop 92 ++ subs, false⟩) := by
    unfold readHeader tecBytes
    rw [if_pos rfl]
    dsimp only
    rw [hx, List.append_assoc _ _ rest, hsubs, hm, Outcome.ok_bind]
    dsimp only
    rw [drop_app lp, w4, hlab', Outcome.ok_bind, w36, Outcome.ok_bind, w84, hint, Outcome.ok_bind, w28, w3]
    rfl
  have keys : readKeysOf false true (idOf a.family) (pre ++ w) ⟨fill.drop 92 ++ subs, false⟩ = .ok (none, some ⟨subs, false⟩) := by
    unfold readKeysOf
    by_cases hA : a.family = .A
    · rw [if_pos hA] at l5
      rw [hA, if_pos (show idOf .A = 112 from rfl), read_app _ _ _ _ (by rw [List.length_drop]; omega)]
      rfl
    · rw [if_neg hA] at l5
      rw [if_neg (by revert hA; cases a.family <;> simp [idOf]), List.drop_of_length_le (by omega)]
      rfl
  refine ⟨⟨lab, h.seed, ident, interp, none, some imgs⟩, imgs, ?_, hlab, rfl, hid, hint, rfl, hlen, ?_⟩
  · unfold readfrom
    rw [head, Outcome.ok_bind]
    dsimp only
    rw [keys, Outcome.ok_bind]
    dsimp only
    rw [hi]
    rfl
  · intro k b hb
    obtain ⟨img, e, n1, n2, r⟩ := hshow k b hb
    refine ⟨img, e, ?_, fun j hj => ⟨r j hj, fun hv => ?_⟩⟩
    · rw [bands_dims a hd b (List.mem_of_getElem? hb), n1, n2]
    · rw [r j hj, readLine, if_neg hv]

/-- Files of the format A with infrared and water vapour images. -/
example (pix : Nat → Nat → Bytes) (hpix : ∀ k j, (pix k j).length = 2500) :
    let a : Announced := ⟨.A, true, false, true, false⟩
    let ss : List Sub := (imageLines .A (bands a) pix).map fun l => ⟨List.replicate 384 0, l, List.replicate 184 0⟩
    let t : Tec := ⟨List.replicate 512 9, aHeader .A (aLabel 0 0 1 1), List.replicate 1628 0⟩
    disseminated a = true ∧ t.Sized .A ∧ announces t.header.label = some a ∧ knownIdent t.header.ident ∧ (∀ s ∈ ss, s.TecSized .A) ∧
      ss.map (·.line) = imageLines .A (bands a) pix := by
  refine ⟨rfl, ⟨List.length_replicate, rfl, rfl, rfl, List.length_replicate, List.length_replicate⟩, by decide, by unfold knownIdent; decide,
    ?_, ?_⟩
  · intro s hs
    obtain ⟨l, hm, rfl⟩ := List.mem_map.mp hs
    obtain ⟨i, _, hl⟩ := List.mem_flatMap.mp hm
    refine ⟨List.length_replicate, ?_, List.length_replicate⟩
    show l.length = 2500
    simp only [show bands ⟨.A, true, false, true, false⟩ = [.IR, .WV] from rfl, group, pieces, reduceCtorEq, if_false,
      List.append_nil, List.cons_append, List.nil_append, List.mem_cons, List.not_mem_nil, or_false] at hl
    rcases hl with rfl | rfl <;> exact hpix _ _
  · rw [List.map_map]
    exact List.map_id _

/-- The keys of a TECNAVIA file are never read: they stay as they were, whatever the file. -/
theorem C73_violated_keys (L : Nat) (machine : Bool) (utcoff : Int) (buf file : Bytes) (F : File)
    (h : readfrom L machine true utcoff buf file = .ok F) : F.keys = none := by
  unfold readfrom at h
  cases hh : readHeader L machine true utcoff ⟨file, false⟩ with
  | ok v =>
    obtain ⟨⟨id, lab, seed, ident, interp⟩, fr, s⟩ := v
    rw [hh, Outcome.ok_bind] at h
    dsimp only at h
    have hk : ∃ s', readKeysOf machine true id fr s = .ok (none, s') := by
      unfold readKeysOf
      split
      · rw [if_pos rfl]
        dsimp only
        split <;> exact ⟨_, rfl⟩
      · exact ⟨_, rfl⟩
    obtain ⟨s', hk⟩ := hk
    rw [hk, Outcome.ok_bind] at h
    dsimp only at h
    cases s' with
    | none =>
      injection h with h
      rw [← h]
    | some s' =>
      dsimp only at h
      cases hi : readImages machine true id lab s' buf with
      | ok imgs =>
        rw [hi] at h
        injection h with h
        rw [← h]
      | throws => rw [hi] at h; cases h
      | terminate => rw [hi] at h; cases h
      | ub => rw [hi] at h; cases h
      | diverges => rw [hi] at h; cases h
  | throws => rw [hh] at h; cases h
  | terminate => rw [hh] at h; cases h
  | ub => rw [hh] at h; cases h
  | diverges => rw [hh] at h; cases h

end Msat.Props
