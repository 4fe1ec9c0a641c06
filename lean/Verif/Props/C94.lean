import Verif.Model.XritTools
import Verif.Spec.XritTools
import Verif.Props.C89
import Verif.Props.C07
import Verif.Props.C82
import Verif.Props.C92
import Verif.Lemmas.Text
import Mathlib.Data.List.Forall2
import Mathlib.Tactic.Ring

/-
C94 The pictures and NetCDF files made of the segments of a product show its lines.
-/
namespace Msat.Props
open Msat HritSpec StdString
open Msat.Hrit (Env Disk Header Data readFile readFile_eq headerOf_segment headerOf_structure headerOf_navigation)
open Msat.XritTools XritToolsSpec
open Msat.Xrit (FileAccess glob)

/-! ### lists of blocks of the same length -/

theorem blocks_length {α β : Type} (f : α → List β) (n : Nat) : ∀ l : List α, (∀ a ∈ l, (f a).length = n) →
    (l.flatMap f).length = l.length * n
  | [], _ => by simp
  | a :: l, h => by
    rw [List.flatMap_cons, List.length_append, h a (by simp), blocks_length f n l (fun b hb => h b (by simp [hb])),
      List.length_cons, Nat.succ_mul, Nat.add_comm]

theorem blocks_get {α β : Type} (f : α → List β) (n : Nat) : ∀ (l : List α), (∀ a ∈ l, (f a).length = n) → ∀ (k r : Nat) (a : α),
    l[k]? = some a → r < n → (l.flatMap f)[k * n + r]? = (f a)[r]?
  | [], _, k, r, a, hk, _ => by simp at hk
  | b :: l, h, 0, r, a, hk, hr => by
    simp only [List.getElem?_cons_zero, Option.some.injEq] at hk
    subst hk
    rw [List.flatMap_cons, Nat.zero_mul, Nat.zero_add, List.getElem?_append_left (by rw [h b (by simp)]; exact hr)]
  | b :: l, h, k + 1, r, a, hk, hr => by
    rw [List.getElem?_cons_succ] at hk
    have hb := h b (by simp)
    rw [List.flatMap_cons, List.getElem?_append_right (by rw [hb, Nat.succ_mul]; omega), hb,
      show (k + 1) * n + r - n = k * n + r by rw [Nat.succ_mul]; omega]
    exact blocks_get f n l (fun b hb => h b (by simp [hb])) k r a hk hr

/-! ### the files -/

section
variable {env : Env} {disk : Disk} {files : Nat → Bytes} {c : Common} {imgs : Nat → List Nat}

theorem toSegments (h : OnDisk env disk files c imgs) :
    Segments env disk files c.planned c.cols c.lines c.channel c.planned c.format c.cfac imgs := by
  refine ⟨h.named, h.known, h.memory, fun i hi => ?_⟩
  obtain ⟨rs, data, rest, comp, start, e⟩ := h.file i hi
  exact ⟨rs, data, rest, c.bpp, comp, c.spacecraft, start, c.lfac, c.coff, c.loff, e⟩

/-- What one of the files is read as. -/
def ReadAs (c : Common) (imgs : Nat → List Nat) (i : Nat) (h : Header) (d : Data) : Prop :=
  (∃ s, h.segmentId = some s ∧ s.spacecraft = c.spacecraft ∧ s.channel = c.channel ∧ s.sequence = i + 1 ∧
    s.plannedEnd = c.planned ∧ s.format = c.format) ∧
  (∃ s, h.imageStructure = some s ∧ s.bpp = c.bpp ∧ s.columns = c.cols ∧ s.lines = c.lines) ∧
  (∃ n, h.imageNavigation = some n ∧ n.cfac = c.cfac ∧ n.lfac = c.lfac ∧ n.coff = c.coff ∧ n.loff = c.loff) ∧
  ∃ im, d.image = some im ∧ im.samples = imgs i

theorem reads_segment (h : OnDisk env disk files c imgs) {i : Nat} (hi : i < c.planned) :
    ∃ file hd d w, disk (files i) = some file ∧ readFile env file = .ok (hd, d, w) ∧ ReadAs c imgs i hd d := by
  obtain ⟨rs, data, rest, comp, start, hd, hf, hs, hc, hid, hnav, hdec, hl⟩ := h.file i hi
  obtain ⟨h', e⟩ := C87_image env rs data rest hf c.bpp c.cols c.lines comp c.spacecraft c.channel (i + 1) start c.planned c.format
    hs hc hid h.known _ hdec (Nat.le_of_eq hl.symm) (h.memory _) (h.memory _)
  refine ⟨_, _, _, _, hd, e, ?_⟩
  rw [readFile_eq hf] at e
  obtain ⟨⟨d, w⟩, e1, e2⟩ := Outcome.of_bind_ok e
  injection e2 with e2
  simp only [Prod.mk.injEq] at e2
  obtain ⟨rfl, rfl, rfl⟩ := e2
  have h1 := headerOf_structure .fresh 0 rs data
  have h2 := headerOf_segment .fresh 0 rs data
  have h3 := headerOf_navigation .fresh 0 rs data
  rw [hs] at h1
  rw [hid] at h2
  rw [hnav] at h3
  simp only [Option.map_some, Option.some_or] at h1 h2 h3
  refine ⟨⟨_, h2, rfl, rfl, rfl, rfl, rfl⟩, ⟨_, h1, rfl, rfl, rfl⟩, ?_, ⟨_, rfl, ?_⟩⟩
  · cases hn : (Hrit.headerOf .fresh 0 rs data).imageNavigation with
    | none => rw [hn] at h3; cases h3
    | some nav =>
      rw [hn] at h3
      have h3 := Option.some.inj h3
      simp only [Prod.mk.injEq] at h3
      exact ⟨nav, rfl, h3.1, h3.2.1, h3.2.2.1, h3.2.2.2⟩
  · exact List.take_of_length_le (Nat.le_of_eq hl)

theorem reads_segments (h : OnDisk env disk files c imgs) : ∀ present : List Nat, (∀ i ∈ present, i < c.planned) →
    ∃ segs, XritTools.readFiles env disk (present.map files) = .ok (some segs) ∧
      List.Forall₂ (fun i s => ReadAs c imgs i s.1 s.2) present segs
  | [], _ => ⟨[], rfl, .nil⟩
  | i :: present, hp => by
    obtain ⟨file, hd, d, w, e1, e2, e3⟩ := reads_segment h (hp i (by simp))
    obtain ⟨segs, e4, e5⟩ := reads_segments h present (fun j hj => hp j (by simp [hj]))
    refine ⟨(hd, d) :: segs, ?_, .cons e3 e5⟩
    simp only [List.map_cons, XritTools.readFiles, e1, e2, uncaught, Outcome.ok_bind, e4, Outcome.pure_eq, Option.map_some]

/-- Every index is that of a file with the segment, or none if there is no such file. -/
def Placed (planned : Nat) (done : List Nat) (idx : List (Option Nat)) : Prop :=
  idx.length = planned ∧ ∀ k < planned,
    (∃ j, idx[k]? = some (some j) ∧ done[j]? = some k) ∨ (idx[k]? = some none ∧ k ∉ done)

theorem place_spec {segs : List (Header × Data)} {rest : List Nat}
    (hs : List.Forall₂ (fun i s => ReadAs c imgs i s.1 s.2) rest segs) : ∀ (done : List Nat) (idx : List (Option Nat)),
    (∀ i ∈ rest, i < c.planned) → Placed c.planned done idx →
    ∃ idx', place segs done.length idx = .ok idx' ∧ Placed c.planned (done ++ rest) idx' := by
  induction hs with
  | nil => intro done idx _ hp; exact ⟨idx, rfl, by simpa using hp⟩
  | @cons i s rest segs h1 _ ih =>
    intro done idx hr hp
    have hi := hr i (by simp)
    obtain ⟨⟨sid, e1, _, _, e2, _⟩, _⟩ := h1
    have hp' : Placed c.planned (done ++ [i]) (idx.set i (some done.length)) := by
      refine ⟨by rw [List.length_set]; exact hp.1, fun k hk => ?_⟩
      by_cases hki : i = k
      · subst hki
        exact .inl ⟨done.length, by rw [List.getElem?_set_self (by rw [hp.1]; exact hk)], by simp⟩
      · rw [List.getElem?_set_ne hki]
        rcases hp.2 k hk with ⟨j, a, b⟩ | ⟨a, b⟩
        · refine .inl ⟨j, a, ?_⟩
          rw [List.getElem?_append_left (List.getElem?_eq_some_iff.1 b).1, b]
        · refine .inr ⟨a, ?_⟩
          simp only [List.mem_append, List.mem_singleton, not_or]
          exact ⟨b, fun h => hki h.symm⟩
    obtain ⟨idx', a, b⟩ := ih (done ++ [i]) (idx.set i (some done.length)) (fun j hj => hr j (by simp [hj])) hp'
    refine ⟨idx', ?_, by simpa using b⟩
    obtain ⟨hd, d⟩ := s
    dsimp only at e1
    have hlen : ¬ (sid.sequence = 0 ∨ idx.length < sid.sequence) := by rw [hp.1, e2]; omega
    rw [place]
    simp only [e1]
    rw [if_neg hlen, e2, Nat.add_sub_cancel]
    rw [List.length_append] at a
    exact a

/-- The block of samples an index stands for. -/
def blockOf (present : List Nat) (imgs : Nat → List Nat) (n : Nat) : Option Nat → List Nat
  | none => List.replicate n 0
  | some j => ((present[j]?.map imgs).getD [])

theorem assemble_spec {segs : List (Header × Data)} {present : List Nat}
    (hs : List.Forall₂ (fun i s => ReadAs c imgs i s.1 s.2) present segs) (n : Nat)
    (hl : ∀ i ∈ present, (imgs i).length = n) : ∀ idx : List (Option Nat),
    (∀ j, some j ∈ idx → j < present.length) →
    assemble segs n idx = .ok (idx.flatMap (blockOf present imgs n))
  | [], _ => rfl
  | none :: r, h => by
    rw [assemble, assemble_spec hs n hl r (fun j hj => h j (by simp [hj]))]
    rfl
  | some j :: r, h => by
    have hj := h j (by simp)
    have hj' : j < segs.length := hs.length_eq ▸ hj
    have := List.forall₂_iff_get.1 hs
    obtain ⟨_, _, _, im, e1, e2⟩ := this.2 j hj hj'
    have hlen : im.samples.length = n := by rw [e2]; exact hl _ (List.getElem_mem _)
    have hg : (segs[j]?.bind fun s => s.2.image) = some im := by
      rw [List.getElem?_eq_getElem hj']
      exact e1
    rw [assemble, hg]
    simp only [hlen, Nat.lt_irrefl, if_false]
    rw [assemble_spec hs n hl r (fun j hj => h j (by simp [hj]))]
    simp only [Outcome.ok_bind, Outcome.pure_eq, List.flatMap_cons, blockOf]
    rw [List.getElem?_eq_getElem hj, List.take_of_length_le (Nat.le_of_eq hlen), e2]
    rfl

/-- What the two programs put together: the header of the first file, and every sample at the place of its line and column. -/
theorem gather_spec (h : OnDisk env disk files c imgs) (ls : Bytes → List Bytes) (fa : FileAccess) (present : List Nat)
    (hpr : ∀ i ∈ present, i < c.planned) (hne : present ≠ []) (hg : glob ls (pattern fa) = present.map files) :
    ∃ hd d s i px p, gather env ls disk fa = .ok (.samples hd s i px) ∧ ReadAs c imgs p hd d ∧
      hd.segmentId = some s ∧ hd.imageStructure = some i ∧ px.length = c.planned * c.lines * c.cols ∧
      ∀ line < c.planned * c.lines, ∀ col < c.cols, px[line * c.cols + col]? = sampleOf c imgs present line col := by
  obtain ⟨segs, r1, r2⟩ := reads_segments h present hpr
  have himg : ∀ i < c.planned, (imgs i).length = c.cols * c.lines := by
    intro i hi
    obtain ⟨_, _, _, _, _, _, _, _, _, _, _, _, hl⟩ := h.file i hi
    exact hl
  obtain ⟨idx, p1, p2⟩ := place_spec r2 [] (List.replicate c.planned none) hpr
    ⟨by simp, fun k hk => .inr ⟨by rw [List.getElem?_replicate, if_pos hk], by simp⟩⟩
  rw [List.nil_append] at p2
  have hidx : ∀ j, some j ∈ idx → j < present.length := by
    intro j hj
    obtain ⟨k, hk, e⟩ := List.mem_iff_getElem.1 hj
    rcases p2.2 k (p2.1 ▸ hk) with ⟨j', a, b⟩ | ⟨a, _⟩
    · rw [List.getElem?_eq_getElem hk, e] at a
      injection a with a; injection a with a
      subst a
      exact (List.getElem?_eq_some_iff.1 b).1
    · rw [List.getElem?_eq_getElem hk, e] at a
      simp at a
  have as := assemble_spec r2 (c.cols * c.lines) (fun i hi => himg i (hpr i hi)) idx hidx
  have hblk : ∀ a ∈ idx, (blockOf present imgs (c.cols * c.lines) a).length = c.cols * c.lines := by
    intro a ha
    cases a with
    | none => simp [blockOf]
    | some j =>
      have hj := hidx j ha
      simp only [blockOf, List.getElem?_eq_getElem hj, Option.map_some, Option.getD_some]
      exact himg _ (hpr _ (List.getElem_mem _))
  cases r2 with
  | nil => exact absurd rfl hne
  | @cons p s present segs h1 h2 =>
    obtain ⟨hd, d⟩ := s
    obtain ⟨⟨sid, e1, _, _, _, e2, e3⟩, ⟨st, e4, _, e5, e6⟩, _⟩ := id h1
    dsimp only at e1 e4
    have hz : sid.format ≠ 0 := by have := h.known; omega
    refine ⟨hd, d, sid, st, idx.flatMap (blockOf (p :: present) imgs (c.cols * c.lines)), p, ?_, h1, e1, e4, ?_, ?_⟩
    · rw [gather, hg, if_neg (by simp)]
      rw [r1]
      have hp1 : place ((hd, d) :: segs) 0 (List.replicate sid.plannedEnd none) = .ok idx := by rw [e2]; exact p1
      have hn : Hrit.new env (2 * (sid.plannedEnd * (st.columns * st.lines))) = .ok () := by
        rw [Hrit.new, if_pos (h.memory _)]
      have has : assemble ((hd, d) :: segs) (st.columns * st.lines) idx
          = .ok (idx.flatMap (blockOf (p :: present) imgs (c.cols * c.lines))) := by rw [e5, e6]; exact as
      simp only [Outcome.ok_bind, gatherRead, List.head?_cons, Option.bind_some, e1, if_neg hz, hp1, Option.map_some, e4, hn,
        uncaught, has]
    · rw [blocks_length _ _ _ hblk, p2.1, Nat.mul_comm c.cols, Nat.mul_assoc]
    · intro line hline col hcol
      have hl : 0 < c.lines := by
        rcases Nat.eq_zero_or_pos c.lines with h0 | h0
        · rw [h0] at hline; simp at hline
        · exact h0
      have hk : line / c.lines < c.planned := Nat.div_lt_of_lt_mul (by rw [Nat.mul_comm]; exact hline)
      have hm := Nat.mod_lt line hl
      have hr : line % c.lines * c.cols + col < c.cols * c.lines := by
        have : (line % c.lines + 1) * c.cols ≤ c.lines * c.cols := Nat.mul_le_mul_right _ hm
        rw [Nat.mul_comm c.cols]
        rw [Nat.succ_mul] at this
        omega
      have hpos : line * c.cols + col = line / c.lines * (c.cols * c.lines) + (line % c.lines * c.cols + col) := by
        have := Nat.div_add_mod line c.lines
        calc line * c.cols + col = (c.lines * (line / c.lines) + line % c.lines) * c.cols + col := by rw [this]
          _ = _ := by ring
      rw [hpos, sampleOf]
      rcases p2.2 _ hk with ⟨j, a, b⟩ | ⟨a, b⟩
      · rw [blocks_get _ _ _ hblk _ _ _ a hr, if_pos (List.mem_of_getElem? b), blockOf, b]
        rfl
      · rw [blocks_get _ _ _ hblk _ _ _ a hr, if_neg b, blockOf, List.getElem?_replicate, if_pos hr]

/-! ### XRIT2Image -/

/-- The options say which product: where its files are (here if it is not said), resolution, satellite, channel and time. -/
structure OptionsOf (a : Asked) (fa : FileAccess) : Prop where
  directory : fa.directory = a.directory.getD (str ".")
  resolution : a.resolution = some fa.resolution
  productid1 : a.productid1 = some fa.productid1
  productid2 : a.productid2 = some fa.productid2
  timing : a.timing = some fa.timing

theorem product_of {a : Asked} {fa : FileAccess} (h : OptionsOf a fa) : a.product = some fa := by
  rw [Asked.product, h.resolution, h.productid1, h.productid2, h.timing]
  dsimp only
  rw [← h.directory]

/-- Writing the picture. -/
theorem writeImage_ok {creates : Bytes → Bool} {fa : FileAccess} {format : Option Bytes} {normalize : Bool} {overlay : Option Bytes}
    {s : Hrit.SegmentId} {i : Hrit.ImageStruct} {px : List Nat} (h1 : 0 < i.columns) (h2 : 0 < i.lines * s.plannedEnd)
    (h3 : i.lines * s.plannedEnd < 2 ^ 31) (hc : creates (imageName fa format) = true) :
    writeImage creates fa format normalize overlay s i px = .ok ⟨0, some (imageName fa format, {
      width := i.columns, height := i.lines * s.plannedEnd, samples := px.reverse, normalized := normalize,
      overlay := if s.channel < 12 then overlay else none })⟩ := by
  have hi : int32 ((i.lines : Int) * s.plannedEnd) = .ok ((i.lines * s.plannedEnd : Nat) : Int) := by
    rw [int32, if_pos (by rw [← Int.natCast_mul]; omega), Int.natCast_mul]
  rw [writeImage, hi, Outcome.ok_bind, if_neg (by rw [hc]; simp only [Bool.true_eq_false, or_false]; omega), Int.toNat_natCast]

/-- C94: a product whose segments are files on disk, of which those in `present` are found, in any order: XRIT2Image writes a
picture, in the current directory, with as many columns and as many rows as there are columns and lines in the product.  The
lines go from the last to the first and the columns from the last to the first; the lines of segments that are not found are
black.  An overlay is used for channels from 1 to 11 only. -/
theorem C94_image (h : OnDisk env disk files c imgs) (ls : Bytes → List Bytes) (creates : Bytes → Bool) (a : Asked) (fa : FileAccess)
    (ha : OptionsOf a fa) (format : Option Bytes) (normalize : Bool) (overlay : Option Bytes) (present : List Nat)
    (hpr : ∀ i ∈ present, i < c.planned) (hne : present ≠ []) (hg : glob ls (pattern fa) = present.map files)
    (hc : 0 < c.cols) (hl : 0 < c.lines) (hsize : c.planned * c.lines < 2 ^ 31)
    (hw : creates (imageName fa format) = true) :
    ∃ pic, xrit2Image env ls disk creates a format normalize overlay = .ok ⟨0, some (
        fa.resolution ++ str "-" ++ fa.productid1 ++ str "-" ++ fa.productid2 ++ str "-" ++ fa.timing ++ str "." ++
          format.getD (str "jpg"), pic)⟩ ∧
      pic.width = c.cols ∧ pic.height = c.planned * c.lines ∧ pic.samples.length = pic.width * pic.height ∧
      pic.normalized = normalize ∧ pic.overlay = (if c.channel < 12 then overlay else none) ∧
      ∀ y < pic.height, ∀ x < pic.width,
        pic.samples[y * pic.width + x]? = sampleOf c imgs present (pic.height - 1 - y) (pic.width - 1 - x) := by
  obtain ⟨hd, d, s, i, px, p, g1, ⟨⟨s', e1, _, e2, _, e3, _⟩, ⟨i', e4, _, e5, e6⟩, _⟩, g3, g4, g5, g6⟩ :=
    gather_spec h ls fa present hpr hne hg
  obtain rfl : s = s' := Option.some.inj (g3.symm.trans e1)
  obtain rfl : i = i' := Option.some.inj (g4.symm.trans e4)
  have hpl : 0 < c.planned := by
    obtain ⟨q, hq⟩ := List.exists_mem_of_ne_nil present hne
    have := hpr q hq
    omega
  have hh : i.lines * s.plannedEnd = c.planned * c.lines := by rw [e3, e6, Nat.mul_comm]
  refine ⟨{ width := i.columns, height := i.lines * s.plannedEnd, samples := px.reverse, normalized := normalize, overlay := if s.channel < 12 then overlay else none }, ?_, e5, hh, ?_, rfl, ?_, ?_⟩
  · rw [xrit2Image, product_of ha]
    dsimp only
    rw [g1, Outcome.ok_bind]
    dsimp only
    rw [writeImage_ok (by rw [e5]; exact hc) (by rw [hh]; exact Nat.mul_pos hpl hl) (by rw [hh]; exact hsize) hw]
    have hn : imageName fa format = fa.resolution ++ str "-" ++ fa.productid1 ++ str "-" ++ fa.productid2 ++ str "-" ++ fa.timing ++
        str "." ++ format.getD (str "jpg") := by
      cases format with
      | none =>
        simp only [imageName, Option.getD_none, List.append_assoc]
        rfl
      | some f => simp only [imageName, Option.getD_some, List.append_assoc]
    rw [hn]
  · show px.reverse.length = i.columns * (i.lines * s.plannedEnd)
    rw [List.length_reverse, g5, hh, e5, Nat.mul_comm]
  · show (if s.channel < 12 then overlay else none) = _
    rw [e2]
  · show ∀ y < i.lines * s.plannedEnd, ∀ x < i.columns, px.reverse[y * i.columns + x]? =
      sampleOf c imgs present (i.lines * s.plannedEnd - 1 - y) (i.columns - 1 - x)
    rw [hh, e5]
    intro y hy x hx
    have hlt : y * c.cols + x < px.length := by
      have : (y + 1) * c.cols ≤ c.planned * c.lines * c.cols := Nat.mul_le_mul_right _ hy
      rw [Nat.succ_mul] at this
      omega
    rw [List.getElem?_reverse hlt, ← g6 _ (by omega) _ (by omega), g5]
    congr 1
    generalize c.planned * c.lines = t at *
    obtain ⟨u, rfl⟩ : ∃ u, t = y + 1 + u := ⟨t - (y + 1), by omega⟩
    obtain ⟨v, hv⟩ : ∃ v, c.cols = x + 1 + v := ⟨c.cols - (x + 1), by omega⟩
    rw [show y + 1 + u - 1 - y = u by omega, show c.cols - 1 - x = v by omega,
      show (y + 1 + u) * c.cols = y * c.cols + c.cols + u * c.cols by ring]
    omega

/-- The rows of the picture are the lines that the library gives for the product, line 0 first, if the columns are numbered from
east to west (as they are in the products of Meteosat), and mirrored if they are not.  `total` is the number of lines of the
image: for HRV, of the area in the epilogue. -/
theorem C94_lines (h : OnDisk env disk files c imgs) (ls : Bytes → List Bytes) (creates : Bytes → Bool) (a : Asked) (fa : FileAccess)
    (ha : OptionsOf a fa) (format : Option Bytes) (normalize : Bool) (overlay : Option Bytes) (present : List Nat)
    (hpr : ∀ i ∈ present, i < c.planned) (hne : present ≠ []) (hg : glob ls (pattern fa) = present.map files)
    (hc : 0 < c.cols) (hl : 0 < c.lines) (cov : Option Xrit.Coverage) (hcov : c.channel = 12 → cov.isSome) (total : Nat)
    (htot : total = if c.channel = 12 then (cov.elim 0 fun v => max v.lowerNorth v.upperNorth) else 3712)
    (hfits : total < 2 ^ 31) (hcovers : c.planned * c.lines = total) (hw : creates (imageName fa format) = true) :
    ∃ name pic da, xrit2Image env ls disk creates a format normalize overlay = .ok ⟨0, some (name, pic)⟩ ∧
      Hrit.scanFiles disk cov (present.map files) = .ok da ∧ pic.width = da.columns ∧ pic.height = total ∧
      ∀ (history : List Nat) (y : Nat), y < total →
        ∃ r, (Xrit.lineRead da (Hrit.segDisk env disk) (afterLines da (Hrit.segDisk env disk) history) y).1 = .ok r ∧
          r.length = pic.width ∧
          ∀ x < pic.width, pic.samples[y * pic.width + x]? = r[if c.cfac < 0 then x else pic.width - 1 - x]? := by
  obtain ⟨pic, p1, p2, p3, _, _, _, p4⟩ := C94_image h ls creates a fa ha format normalize overlay present hpr hne hg hc hl
    (by omega) hw
  obtain ⟨da, d1, d2, _, _, d3⟩ := C89_lines (toSegments h) present hpr hne cov hcov total htot (by omega) hcovers
  refine ⟨_, pic, da, p1, d1, by rw [p2, d2], by rw [p3, hcovers], fun history y hy => ?_⟩
  have hq : (total - 1 - y) / c.lines < c.planned := Nat.div_lt_of_lt_mul (by rw [Nat.mul_comm, hcovers]; omega)
  have hm := Nat.mod_lt (total - 1 - y) hl
  have hdm := Nat.div_add_mod (total - 1 - y) c.lines
  obtain ⟨r, r1, r2, r3⟩ := d3 history _ _ hq hm
  rw [Nat.mul_comm, hdm, show total - 1 - (total - 1 - y) = y by omega] at r1
  refine ⟨r, r1, by rw [r2, p2], fun x hx => ?_⟩
  rw [p4 y (by omega) x hx, p3, hcovers, p2, sampleOf]
  rw [p2] at hx
  rw [r3 _ (by split <;> omega)]
  by_cases hcf : c.cfac < 0
  · simp only [if_pos hcf]
  · simp only [if_neg hcf]

end

/-! ### XRIT2NetCDF -/

theorem int32_nat {n : Nat} (h : n < 2 ^ 31) : int32 (n : Int) = .ok (n : Int) := by
  rw [int32, if_pos (by omega)]

theorem areaOf_text {w : Window} {text : Bytes} (h : w.Text text) (hl : w.firstLine < 2 ^ 31) (hc : w.firstCol < 2 ^ 31)  :
    areaOf text = .ok ⟨(w.firstLine : Int) - 1, w.nLines, (w.firstCol : Int) - 1, w.nCols⟩ := by
  obtain ⟨k1, k2, k3, k4, p1, p2, p3, p4, b1, b2, b3, b4, rfl⟩ := h
  have hn : ∀ r : Bytes, ([44] ++ r).takeWhile Text.isDigit = [] := by intro r; rfl
  have hs : Text.scanf areaFormat (TextSpec.digits k1 w.firstLine ++ ([44] ++ (TextSpec.digits k2 w.nLines ++ ([44] ++
      (TextSpec.digits k3 w.firstCol ++ ([44] ++ TextSpec.digits k4 w.nCols)))))) =
      [(w.firstLine : Int), w.nLines, w.firstCol, w.nCols] := by
    rw [areaFormat, Text.scanf_int _ _ _ _ _ p1 b1 (.inl ⟨rfl, hn _⟩), Text.scanf_lit,
      Text.scanf_int _ _ _ _ _ p2 b2 (.inl ⟨rfl, hn _⟩), Text.scanf_lit,
      Text.scanf_int _ _ _ _ _ p3 b3 (.inl ⟨rfl, hn _⟩), Text.scanf_lit]
    have := Text.scanf_int [] none k4 w.nCols [] p4 b4 (.inl ⟨rfl, rfl⟩)
    rw [List.append_nil] at this
    rw [this]
    rfl
  rw [areaOf, hs]
  have h1 : int32 ((w.firstCol : Int) - 1) = .ok ((w.firstCol : Int) - 1) := by rw [int32, if_pos (by omega)]
  have h2 : int32 ((w.firstLine : Int) - 1) = .ok ((w.firstLine : Int) - 1) := by rw [int32, if_pos (by omega)]
  simp only [List.getElem?_cons_succ, List.getElem?_cons_zero, Option.getD_some, h1, h2, Outcome.ok_bind, Outcome.pure_eq]

theorem inside_ok {start n total : Nat} (h : start + n ≤ total) (ht : total < 2 ^ 31) :
    inside start n total = .ok () := by
  have h1 : int32 ((total : Int) - n) = .ok ((total : Int) - n) := by rw [int32, if_pos (by omega)]
  have h2 : int32 ((total : Int) - start) = .ok ((total : Int) - start) := by rw [int32, if_pos (by omega)]
  rw [inside, if_neg (by omega), h1, Outcome.ok_bind, if_neg (by omega), h2, Outcome.ok_bind, if_neg (by omega)]

theorem areaRows_spec (px : List Nat) (npix l p n : Nat) (hpx : px.length < 2 ^ 31) (hp : p + n ≤ npix) : ∀ (k i : Nat),
    (l + i + k) * npix ≤ px.length → (i + k) * n ≤ px.length →
    areaRows px npix ⟨l, (k : Int), p, n⟩ i k =
      .ok ((List.range' i k).flatMap fun j => (px.drop ((l + j) * npix + p)).take n) := by
  suffices ∀ (nLin : Int) (k i : Nat), (l + i + k) * npix ≤ px.length → (i + k) * n ≤ px.length →
      areaRows px npix ⟨l, nLin, p, n⟩ i k = .ok ((List.range' i k).flatMap fun j => (px.drop ((l + j) * npix + p)).take n) from
    fun k i => this k k i
  intro nLin k
  induction k with
  | zero => intro i _ _; rfl
  | succ k ih =>
    intro i h1 h2
    have h3 : (l + i) * npix + npix ≤ px.length := by
      have : (l + i + 1) * npix ≤ (l + i + (k + 1)) * npix := Nat.mul_le_mul_right _ (by omega)
      rw [Nat.succ_mul] at this
      omega
    have h4 : i * n ≤ px.length := Nat.le_trans (Nat.mul_le_mul_right _ (by omega)) h2
    have e1 : int32 ((i : Int) * (n : Int)) = .ok ((i * n : Nat) : Int) := by
      rw [← Int.natCast_mul]; exact int32_nat (by omega)
    have e2 : int32 (((l : Int) + (i : Int)) * (npix : Int)) = .ok (((l + i) * npix : Nat) : Int) := by
      rw [← Int.natCast_add, ← Int.natCast_mul]; exact int32_nat (by omega)
    have e3 := ih (i + 1) (by rw [show l + (i + 1) + k = l + i + (k + 1) by omega]; exact h1)
      (by rw [show i + 1 + k = i + (k + 1) by omega]; exact h2)
    rw [areaRows]
    dsimp only
    rw [e1, Outcome.ok_bind, e2, Outcome.ok_bind, if_neg (by omega)]
    rw [show ((i : Int) + 1) = ((i + 1 : Nat) : Int) by omega, e3]
    rw [show ((((l + i) * npix : Nat) : Int) + (p : Int)).toNat = (l + i) * npix + p by omega, Int.toNat_natCast]
    rfl

/-- The samples of a window. -/
theorem subarea_spec (env : Env) (hm : ∀ k, env.alloc k = true) (px : List Nat) (cols lines : Nat) (hl : px.length = lines * cols)
    (hpx : px.length < 2 ^ 31) (hcols : cols < 2 ^ 31) (hlines : lines < 2 ^ 31) (w : Window) (hw : w.In lines cols) :
    ∃ rows, subarea env px cols lines (some ⟨(w.firstLine : Int) - 1, w.nLines, (w.firstCol : Int) - 1, w.nCols⟩) =
        .ok (⟨(w.firstLine : Int) - 1, w.nLines, (w.firstCol : Int) - 1, w.nCols⟩, rows) ∧
      rows.length = w.nLines * w.nCols ∧
      ∀ y < w.nLines, ∀ x < w.nCols, rows[y * w.nCols + x]? = px[(w.firstLine - 1 + y) * cols + (w.firstCol - 1 + x)]? := by
  obtain ⟨a1, a2, a3, a4, a5, a6⟩ := hw
  obtain ⟨l, e1⟩ : ∃ l, w.firstLine = l + 1 := ⟨w.firstLine - 1, by omega⟩
  obtain ⟨p, e2⟩ : ∃ p, w.firstCol = p + 1 := ⟨w.firstCol - 1, by omega⟩
  rw [show (w.firstLine : Int) - 1 = (l : Int) by omega, show (w.firstCol : Int) - 1 = (p : Int) by omega,
    show w.firstLine - 1 = l by omega, show w.firstCol - 1 = p by omega]
  have hin : (l + w.nLines) * cols ≤ px.length := by rw [hl]; exact Nat.mul_le_mul_right _ (by omega)
  have hsz : w.nLines * w.nCols ≤ px.length := by rw [hl]; exact Nat.mul_le_mul (by omega) (by omega)
  have hi : int32 ((w.nCols : Int) * (w.nLines : Int)) = .ok ((w.nCols * w.nLines : Nat) : Int) := by
    rw [← Int.natCast_mul]; exact int32_nat (by rw [Nat.mul_comm]; omega)
  have hr := areaRows_spec px cols l p w.nCols hpx (by omega) w.nLines 0 (by simpa using hin) (by simpa using hsz)
  refine ⟨(List.range' 0 w.nLines).flatMap fun j => (px.drop ((l + j) * cols + p)).take w.nCols, ?_, ?_, ?_⟩
  · rw [subarea]
    dsimp only
    rw [inside_ok (by omega) hlines, Outcome.ok_bind, inside_ok (by omega) hcols, Outcome.ok_bind, hi, Outcome.ok_bind,
      if_neg (by omega), Hrit.new, if_pos (hm _)]
    simp only [uncaught, Outcome.ok_bind, Int.toNat_natCast]
    rw [show (0 : Int) = ((0 : Nat) : Int) from rfl, hr, Outcome.ok_bind, if_neg (by omega)]
  all_goals
    have hb : ∀ j ∈ List.range' 0 w.nLines, ((px.drop ((l + j) * cols + p)).take w.nCols).length = w.nCols := by
      intro j hj
      have hj : j < w.nLines := by
        have := (List.mem_range'_1).1 hj
        omega
      have : (l + j + 1) * cols ≤ (l + w.nLines) * cols := Nat.mul_le_mul_right _ (by omega)
      rw [Nat.succ_mul] at this
      rw [List.length_take, List.length_drop]
      omega
  · rw [blocks_length _ _ _ hb, List.length_range']
  · intro y hy x hx
    rw [blocks_get _ _ _ hb y x y (by rw [List.getElem?_range' (by omega)]; simp) hx, List.getElem?_take, if_pos hx,
      List.getElem?_drop, show (l + y) * cols + p + x = (l + y) * cols + (p + x) from Nat.add_assoc _ _ _]

/-- A product that can be exported: its segments are on disk, and those in `present` are found, in any order; there is one
prologue, and it is read as `pro`; the image has less than 2^31 samples; files can be created. -/
structure NcReady (wd : World) (env : Env) (ls : Bytes → List Bytes) (disk : Disk)
    (readPrologue : Bytes → Outcome (Option XritDataset.Prologue)) (q : Asked) (fa : FileAccess) (files : Nat → Bytes) (c : Common)
    (imgs : Nat → List Nat) (present : List Nat) (pro : XritDataset.Prologue) : Prop where
  onDisk : OnDisk env disk files c imgs
  asked : OptionsOf q fa
  prologue : ∃ f, glob ls (Xrit.prologuePattern fa) = [f] ∧ readPrologue f = .ok (some pro)
  inside : ∀ i ∈ present, i < c.planned
  some_ : present ≠ []
  found : glob ls (pattern fa) = present.map files
  calibrations : pro.calibration.length = 12
  channel : 1 ≤ c.channel ∧ c.channel ≤ 12
  bpp : c.bpp < 31
  cols : 0 < c.cols
  lines : 0 < c.lines
  size : c.planned * c.lines * c.cols < 2 ^ 31
  creates : ∀ n, wd.creates n = true

section
variable {wd : World} {env : Env} {ls : Bytes → List Bytes} {disk : Disk}
  {readPrologue : Bytes → Outcome (Option XritDataset.Prologue)} {q : Asked} {fa : FileAccess} {files : Nat → Bytes} {c : Common}
  {imgs : Nat → List Nat} {present : List Nat} {pro : XritDataset.Prologue}

theorem calibration_ok {cal : List (ℝ × ℝ)} (hcal : cal.length = 12) {channel bpp : Nat} (hch : 1 ≤ channel ∧ channel ≤ 12)
    (hb : bpp < 31) : ∃ s o, cal[channel - 1]? = some (s, o) ∧
      calibration cal channel bpp = .ok (2 ^ bpp, fun i => match SeviriSpec.constants channel with
        | some k => XritDataset.temperature k.1 k.2.1 k.2.2 (i * s + o)
        | none => some (i * s + o)) := by
  obtain ⟨⟨s, o⟩, hso⟩ : ∃ x, cal[channel - 1]? = some x := by
    rw [List.getElem?_eq_getElem (by omega)]; exact ⟨_, rfl⟩
  refine ⟨s, o, hso, ?_⟩
  rw [calibration]
  by_cases h : 3 < channel ∧ channel < 12
  · rw [if_pos h, constants_cold, if_pos h, XritDataset.getCalibration, if_neg (by omega), hso]
    cases hc : XritDataset.cold[channel - 4]? with
    | none =>
      exfalso
      rw [List.getElem?_eq_none_iff] at hc
      simp only [XritDataset.cold, List.length_cons, List.length_nil] at hc
      omega
    | some k => rfl
  · rw [if_neg h, if_neg (by omega), if_neg (by omega), hso, constants_cold, if_neg h]

/-- The channel in names. -/
def ncChannel (c : Common) : Bytes := chname (bytesOf (HritTexts.channelName c.spacecraft c.channel))

theorem writeNetcdf_ok (area : Option Area) (hd : Header) (sg : Hrit.SegmentId) (st : Hrit.ImageStruct) (px rows : List Nat) (nlin : Int)
    (a : Area) (nav : Hrit.ImageNavig) (cal : Nat × (Nat → Option ℝ)) (y mo d hh mi : Nat)
    (h1 : int32 ((st.lines : Int) * (sg.plannedEnd : Int)) = .ok nlin) (h2 : subarea env px st.columns nlin area = .ok (a, rows))
    (h3 : hd.imageNavigation = some nav) (h4 : XritDataset.gmtime pro.start.unixtime = (y, mo, d, hh, mi))
    (h5 : ∀ n, wd.creates n = true) (h6 : calibration pro.calibration sg.channel st.bpp = .ok cal) :
    writeNetcdf wd env pro area hd sg st px = .ok ⟨0, some (ncName (XritTools.channelText sg) y mo d hh mi,
      NcImage.mk (bytesOf (HritTexts.spacecraftName sg.spacecraft)) (timeText y mo d hh mi) a.nPix a.nLin a.pixStart a.linStart
        nav.cfac nav.lfac nav.coff nav.loff cal (if 3 < sg.channel ∧ sg.channel < 12 then "K" else "mW m^-2 sr^-1 (cm^-1)^-1")
        (wd.mktime y mo d hh mi (pro.start.unixtime % 60) - 946684800 - wd.timezone) (XritTools.channelText sg) sg.channel rows)⟩ := by
  rw [writeNetcdf, h1]
  simp only [Outcome.ok_bind, h2, h3, h4]
  rw [if_neg (by rw [h5]; decide), h6]
  rfl

theorem xrit2NetCDF_run {text : Option Bytes} {f : Bytes} (area : Option Area) (pro : XritDataset.Prologue) (hd : Header)
    (sg : Hrit.SegmentId) (st : Hrit.ImageStruct) (px : List Nat) (h1 : areaAsked text = .ok area) (h2 : q.product = some fa)
    (h3 : prologueFile ls fa = some f) (h4 : readPrologue f = .ok (some pro))
    (h5 : gather env ls disk fa = .ok (.samples hd sg st px)) :
    xrit2NetCDF wd env ls disk readPrologue q text = writeNetcdf wd env pro area hd sg st px := by
  unfold xrit2NetCDF
  rw [h1, Outcome.ok_bind]
  unfold netcdfOfArea
  rw [h2]
  dsimp only
  rw [h3]
  dsimp only
  rw [h4, Outcome.ok_bind]
  dsimp only
  rw [h5, Outcome.ok_bind]

theorem netcdf_core (h : NcReady wd env ls disk readPrologue q fa files c imgs present pro) (text : Option Bytes) (w : Window)
    (hw : w.In (c.planned * c.lines) c.cols) (ha : Asks (c.planned * c.lines) c.cols w text) (y mo d hh mi : Nat)
    (hg : XritDataset.gmtime pro.start.unixtime = (y, mo, d, hh, mi)) :
    ∃ s o file, xrit2NetCDF wd env ls disk readPrologue q text = .ok ⟨0, some (ncName (ncChannel c) y mo d hh mi, file)⟩ ∧
      file.satellite = bytesOf (HritTexts.spacecraftName c.spacecraft) ∧ file.time = timeText y mo d hh mi ∧
      file.columns = w.nCols ∧ file.lines = w.nLines ∧
      file.areaStartPix = (if text = none then 1 else (w.firstCol : Int) - 1) ∧
      file.areaStartLin = (if text = none then 1 else (w.firstLine : Int) - 1) ∧
      file.columnScaleFactor = c.cfac ∧ file.lineScaleFactor = c.lfac ∧ file.columnOffset = c.coff ∧ file.lineOffset = c.loff ∧
      file.units = (if 3 < c.channel ∧ c.channel < 12 then "K" else "mW m^-2 sr^-1 (cm^-1)^-1") ∧
      file.seconds = wd.mktime y mo d hh mi (pro.start.unixtime % 60) - 946684800 - wd.timezone ∧
      file.variable_ = ncChannel c ∧ file.chnum = c.channel ∧
      pro.calibration[c.channel - 1]? = some (s, o) ∧
      file.calibration = (2 ^ c.bpp, fun i => match SeviriSpec.constants c.channel with
        | some k => XritDataset.temperature k.1 k.2.1 k.2.2 (i * s + o)
        | none => some (i * s + o)) ∧
      file.samples.length = w.nLines * w.nCols ∧
      ∀ y < w.nLines, ∀ x < w.nCols,
        file.samples[y * w.nCols + x]? = sampleOf c imgs present (w.firstLine - 1 + y) (w.firstCol - 1 + x) := by
  obtain ⟨hd, dd, sg, st, px, p, g1, ⟨⟨s', e1, e7, e2, _, e3, _⟩, ⟨i', e4, e8, e5, e6⟩, ⟨nav, n1, n2, n3, n4, n5⟩, _⟩, g3, g4, g5, g6⟩ :=
    gather_spec h.onDisk ls fa present h.inside h.some_ h.found
  obtain rfl : sg = s' := Option.some.inj (g3.symm.trans e1)
  obtain rfl : st = i' := Option.some.inj (g4.symm.trans e4)
  have hpl : 0 < c.planned := by
    obtain ⟨q, hq⟩ := List.exists_mem_of_ne_nil present h.some_
    have := h.inside q hq
    omega
  have hc := h.cols
  have hl := h.lines
  have hsz := h.size
  have hpos : 0 < c.planned * c.lines := Nat.mul_pos hpl hl
  have hlines : c.planned * c.lines < 2 ^ 31 := Nat.lt_of_le_of_lt (Nat.le_mul_of_pos_right _ hc) hsz
  have hcols : c.cols < 2 ^ 31 := Nat.lt_of_le_of_lt (Nat.le_mul_of_pos_left _ hpos) hsz
  obtain ⟨f, f1, f2⟩ := h.prologue
  obtain ⟨sl, of, c1, c2⟩ := calibration_ok h.calibrations h.channel h.bpp
  -- the area
  have harea : ∃ area rows, areaAsked text = .ok area ∧
      subarea env px c.cols ((c.planned * c.lines : Nat) : Int) area = .ok (⟨if text = none then 1 else (w.firstLine : Int) - 1,
        w.nLines, if text = none then 1 else (w.firstCol : Int) - 1, w.nCols⟩, rows) ∧
      rows.length = w.nLines * w.nCols ∧
      ∀ y < w.nLines, ∀ x < w.nCols, rows[y * w.nCols + x]? = px[(w.firstLine - 1 + y) * c.cols + (w.firstCol - 1 + x)]? := by
    cases text with
    | none =>
      have ha : w = ⟨1, c.planned * c.lines, 1, c.cols⟩ := ha
      subst ha
      refine ⟨none, px, rfl, ?_, g5, ?_⟩
      · rw [subarea, if_neg (by omega)]
        simp only [if_true]
      · intro y _ x _
        simp only [Nat.sub_self, Nat.zero_add]
    | some t =>
      have ha : w.Text t := ha
      obtain ⟨a1, a2, a3, a4, a5, a6⟩ := hw
      obtain ⟨rows, r1, r2, r3⟩ := subarea_spec env h.onDisk.memory px c.cols (c.planned * c.lines) g5 (by rw [g5]; exact hsz) hcols
        hlines w ⟨a1, a2, a3, a4, a5, a6⟩
      have hao := areaOf_text ha (by omega) (by omega)
      refine ⟨some ⟨(w.firstLine : Int) - 1, w.nLines, (w.firstCol : Int) - 1, w.nCols⟩, rows, ?_, ?_, r2, r3⟩
      · rw [areaAsked, hao]
        rfl
      · simp only [reduceCtorEq, if_false]
        exact r1
  obtain ⟨area, rows, a1, a2, a3, a4⟩ := harea
  have hh' : int32 ((st.lines : Int) * (sg.plannedEnd : Int)) = .ok ((c.planned * c.lines : Nat) : Int) := by
    rw [e3, e6, ← Int.natCast_mul, Nat.mul_comm]
    exact int32_nat hlines
  have hchan : XritTools.channelText sg = ncChannel c := by
    rw [XritTools.channelText, ncChannel, e7, e2]
  refine ⟨sl, of, NcImage.mk (bytesOf (HritTexts.spacecraftName c.spacecraft)) (timeText y mo d hh mi) w.nCols w.nLines
    (if text = none then 1 else (w.firstCol : Int) - 1) (if text = none then 1 else (w.firstLine : Int) - 1) c.cfac c.lfac c.coff
    c.loff _ (if 3 < c.channel ∧ c.channel < 12 then "K" else "mW m^-2 sr^-1 (cm^-1)^-1")
    (wd.mktime y mo d hh mi (pro.start.unixtime % 60) - 946684800 - wd.timezone) (ncChannel c) c.channel rows, ?_, rfl, rfl, rfl, rfl,
    rfl, rfl, rfl, rfl, rfl, rfl, rfl, rfl, rfl, rfl, c1, rfl, a3, ?_⟩
  · have hp : prologueFile ls fa = some f := by rw [prologueFile, f1]
    rw [xrit2NetCDF_run area pro hd sg st px a1 (product_of h.asked) hp f2 g1,
      writeNetcdf_ok area hd sg st px rows _ _ nav _ y mo d hh mi hh' (by rw [e5]; exact a2) n1 hg h.creates
        (by rw [e2, e8]; exact c2)]
    simp only [hchan, n2, n3, n4, n5, e7, e2]
  · intro y hy x hx
    rw [a4 y hy x hx]
    obtain ⟨b1, b2, b3, b4, b5, b6⟩ := hw
    exact g6 _ (by omega) _ (by omega)


/-- The file has the samples of the window that was asked for, or of the whole image, with the lines and columns of the segments
in their order, and says its size and the scaling of the segments. -/
theorem C94_netcdf_window (h : NcReady wd env ls disk readPrologue q fa files c imgs present pro) (text : Option Bytes) (w : Window)
    (hw : w.In (c.planned * c.lines) c.cols) (ha : Asks (c.planned * c.lines) c.cols w text) :
    ∃ name file, xrit2NetCDF wd env ls disk readPrologue q text = .ok ⟨0, some (name, file)⟩ ∧
      file.columns = w.nCols ∧ file.lines = w.nLines ∧ file.samples.length = w.nLines * w.nCols ∧
      file.columnScaleFactor = c.cfac ∧ file.lineScaleFactor = c.lfac ∧ file.columnOffset = c.coff ∧ file.lineOffset = c.loff ∧
      file.satellite = bytesOf (HritTexts.spacecraftName c.spacecraft) ∧ file.chnum = c.channel ∧
      ∀ y < w.nLines, ∀ x < w.nCols,
        file.samples[y * w.nCols + x]? = sampleOf c imgs present (w.firstLine - 1 + y) (w.firstCol - 1 + x) := by
  obtain ⟨_, _, file, e, e1, _, e2, e3, _, _, e4, e5, e6, e7, _, _, _, e8, _, _, e9, e10⟩ := netcdf_core h text w hw ha _ _ _ _ _ rfl
  exact ⟨_, file, e, e2, e3, e9, e4, e5, e6, e7, e1, e8, e10⟩

theorem gmtime_cds {day msec : Nat} {y m d : Nat} (hy : 1958 ≤ y) (hv : Spec.ValidDate y m d)
    (hday : Spec.daysBetweenYears 1958 y + Spec.daysBeforeMonth y m + (d - 1) = day + msec / 86400000) :
    XritDataset.gmtime (Time.cdsShortOf day msec).unixtime = (y, m, d, msec / 3600000 % 24, msec / 60000 % 60) := by
  obtain ⟨k, rfl⟩ := Nat.exists_eq_add_of_le hy
  unfold XritDataset.gmtime Time.cdsShortOf
  dsimp only
  have es : ((86400 * (day : Int) + ((msec / 1000 : Nat) : Int) + -378691200) + 378691200).toNat = 86400 * day + msec / 1000 := by omega
  rw [es]
  have e1 : (86400 * day + msec / 1000) / 86400 = Spec.daysBetweenYears 1958 (1958 + k) + (Spec.daysBeforeMonth (1958 + k) m + d - 1) := by
    have := hv.2.2.1
    omega
  rw [e1, yearOf_days k 1958 _ (dayOfYear_lt _ _ _ hv)]
  dsimp only
  rw [monthOf_days _ _ _ hv]
  dsimp only
  rw [show (86400 * day + msec / 1000) % 86400 / 3600 = msec / 3600000 % 24 by omega,
    show (86400 * day + msec / 1000) % 3600 / 60 = msec / 60000 % 60 by omega]

/-- The times in the file are that of the beginning of the acquisition in the prologue (a number of days from the first of January
1958, of which the 15340th is the first of January 2000, and of milliseconds): to the minute in the name and in `Time`, to the
second in the variable, if in that moment `mktime` takes local time for a time with the difference `timezone` from UTC. -/
theorem C94_netcdf_time_partial (h : NcReady wd env ls disk readPrologue q fa files c imgs present pro) (text : Option Bytes) (w : Window)
    (hw : w.In (c.planned * c.lines) c.cols) (ha : Asks (c.planned * c.lines) c.cols w text) (day msec y m d : Nat)
    (ht : pro.start = Time.cdsShortOf day msec) (hy : 1958 ≤ y ∧ y ≤ 9999) (hv : Spec.ValidDate y m d)
    (hday : Spec.daysBetweenYears 1958 y + Spec.daysBeforeMonth y m + (d - 1) = day + msec / 86400000)
    (hmk : wd.mktime y m d (msec / 3600000 % 24 : Nat) (msec / 60000 % 60 : Nat) (msec / 1000 % 60 : Nat) =
      86400 * ((day : Int) - 4383) + (msec / 1000 : Nat) + wd.timezone) :
    ∃ name file, xrit2NetCDF wd env ls disk readPrologue q text = .ok ⟨0, some (name, file)⟩ ∧
      name = ncChannel c ++ str "_" ++ TextSpec.digits 4 y ++ TextSpec.digits 2 m ++ TextSpec.digits 2 d ++ str "_" ++
        TextSpec.digits 2 (msec / 3600000 % 24) ++ TextSpec.digits 2 (msec / 60000 % 60) ++ str ".nc" ∧
      file.time = DatetimeSpec.stamp y m d (msec / 3600000 % 24) (msec / 60000 % 60) 0 ++ str " UTC" ∧
      file.seconds = 86400 * ((day : Int) - 15340) + (msec / 1000 : Nat) := by
  have hg := gmtime_cds (msec := msec) hy.1 hv hday
  rw [← ht] at hg
  obtain ⟨_, _, file, e, _, e1, _, _, _, _, _, _, _, _, _, e2, _⟩ := netcdf_core h text w hw ha _ _ _ _ _ hg
  obtain ⟨v1, v2, v3, v4⟩ := hv
  have hdm : Spec.daysInMonth y m ≤ 31 := by
    unfold Spec.daysInMonth
    split <;> first | omega | (split <;> omega)
  refine ⟨_, file, e, ?_, ?_, ?_⟩
  · rw [ncName, Text.fmt0_digits (by omega) (by omega), Text.fmt0_digits (by omega) (by omega), Text.fmt0_digits (by omega) (by omega),
      Text.fmt0_digits (by omega) (by omega)]
    have hyr : Text.decimal y = TextSpec.digits 4 y := by
      have hlen : (Text.decimal y).length = 4 := by
        rw [Text.decimal, if_neg (by omega), Text.decimal, if_neg (by omega), Text.decimal, if_neg (by omega), Text.decimal,
          if_pos (by omega)]
        rfl
      have := (Text.decimal_digits 3 y (by omega)).2
      rw [hlen] at this
      exact this
    rw [hyr]
  · rw [e1, timeText]
    have := time_text (y := y) (mo := m) (d := d) (h := msec / 3600000 % 24) (mi := msec / 60000 % 60) (s := 0)
      ⟨by omega, by omega, by omega, by omega, by omega, by omega⟩
    rw [← this, Text.fmt0_digits (w := 2) (n := 0) (by omega) (by omega)]
    simp only [List.append_assoc]
    rfl
  · have hs : (pro.start.unixtime % 60) = ((msec / 1000 % 60 : Nat) : Int) := by
      rw [ht, Time.cdsShortOf]
      dsimp only
      omega
    rw [e2, hs, hmk]
    omega

/-- The calibration table has an entry for every value of a sample.  In the channels in the thermal infrared it is the
temperature in kelvin of a body that has the radiance of the sample, if some temperature has; in the other ones the radiance. -/
theorem C94_netcdf_calibration (h : NcReady wd env ls disk readPrologue q fa files c imgs present pro) (text : Option Bytes) (w : Window)
    (hw : w.In (c.planned * c.lines) c.cols) (ha : Asks (c.planned * c.lines) c.cols w text) :
    ∃ name file slope offset, xrit2NetCDF wd env ls disk readPrologue q text = .ok ⟨0, some (name, file)⟩ ∧
      pro.calibration[c.channel - 1]? = some (slope, offset) ∧ file.calibration.1 = 2 ^ c.bpp ∧
      (∀ k, SeviriSpec.constants c.channel = some k → file.units = "K" ∧
        ∀ i : Nat, SeviriSpec.effective k 0 < i * slope + offset →
          ∃ T, file.calibration.2 i = some T ∧ 0 < T ∧ SeviriSpec.effective k T = i * slope + offset) ∧
      (SeviriSpec.constants c.channel = none → file.units = "mW m^-2 sr^-1 (cm^-1)^-1" ∧
        ∀ i : Nat, file.calibration.2 i = some (i * slope + offset)) := by
  obtain ⟨sl, of, file, e, _, _, _, _, _, _, _, _, _, _, e1, _, _, _, e2, e3, _⟩ := netcdf_core h text w hw ha _ _ _ _ _ rfl
  refine ⟨_, file, sl, of, e, e2, by rw [e3], fun k hk => ⟨?_, fun i hi => ?_⟩, fun hk => ⟨?_, fun i => ?_⟩⟩
  · rw [e1, if_pos]
    by_contra hn
    rw [constants_cold, if_neg hn] at hk
    cases hk
  · have hs := constants_sound _ _ hk
    obtain ⟨w1, w2⟩ := written_pos k hs _ hi
    rw [e3]
    dsimp only
    rw [hk]
    dsimp only
    rw [written] at w1 w2
    cases ht : XritDataset.temperature k.1 k.2.1 k.2.2 (i * sl + of) with
    | none => rw [ht] at w1; exact absurd w1 (lt_irrefl _)
    | some T =>
      rw [ht] at w1 w2
      dsimp only at w1 w2
      by_cases hT : T < 0
      · rw [if_pos hT] at w1; exact absurd w1 (lt_irrefl _)
      · rw [if_neg hT] at w1 w2
        exact ⟨T, rfl, w1, w2⟩
  · rw [e1, if_neg]
    intro hn
    rw [constants_cold, if_pos hn, List.getElem?_eq_none_iff] at hk
    simp only [XritDataset.cold, List.length_cons, List.length_nil] at hk
    omega
  · rw [e3]
    dsimp only
    rw [hk]

/-! ### What goes wrong -/

/-- The same samples with different coordinates: the whole image is said to begin in column and line 1, and the window that is the
whole image in column and line 0. -/
theorem C94_violated_start (h : NcReady wd env ls disk readPrologue q fa files c imgs present pro) (text : Bytes)
    (ht : Window.Text ⟨1, c.planned * c.lines, 1, c.cols⟩ text) :
    ∃ name whole window, xrit2NetCDF wd env ls disk readPrologue q none = .ok ⟨0, some (name, whole)⟩ ∧
      xrit2NetCDF wd env ls disk readPrologue q (some text) = .ok ⟨0, some (name, window)⟩ ∧
      whole.columns = window.columns ∧ whole.lines = window.lines ∧
      (∀ y < c.planned * c.lines, ∀ x < c.cols, whole.samples[y * c.cols + x]? = window.samples[y * c.cols + x]?) ∧
      whole.areaStartPix = 1 ∧ whole.areaStartLin = 1 ∧ window.areaStartPix = 0 ∧ window.areaStartLin = 0 := by
  have hpl : 0 < c.planned := by
    obtain ⟨q, hq⟩ := List.exists_mem_of_ne_nil present h.some_
    have := h.inside q hq
    omega
  have hpos : 0 < c.planned * c.lines := Nat.mul_pos hpl h.lines
  have hin : Window.In ⟨1, c.planned * c.lines, 1, c.cols⟩ (c.planned * c.lines) c.cols :=
    ⟨Nat.le_refl _, hpos, by simp, Nat.le_refl _, h.cols, by simp⟩
  obtain ⟨_, _, a, a0, _, _, a1, a2, a3, a4, _, _, _, _, _, _, _, _, _, _, _, a5⟩ :=
    netcdf_core h none ⟨1, c.planned * c.lines, 1, c.cols⟩ hin rfl _ _ _ _ _ rfl
  obtain ⟨_, _, b, b0, _, _, b1, b2, b3, b4, _, _, _, _, _, _, _, _, _, _, _, b5⟩ :=
    netcdf_core h (some text) ⟨1, c.planned * c.lines, 1, c.cols⟩ hin ht _ _ _ _ _ rfl
  refine ⟨_, a, b, a0, b0, by rw [a1, b1], by rw [a2, b2], fun y hy x hx => ?_, a3, a4, b3, b4⟩
  rw [a5 y hy x hx, b5 y hy x hx]

/-- A window that is not in the image ends the program with `std::terminate`, instead of the message only. -/
theorem C94_violated_area (h : NcReady wd env ls disk readPrologue q fa files c imgs present pro) (text : Bytes) (w : Window)
    (ht : w.Text text) (h1 : 1 ≤ w.firstLine) (h2 : w.firstLine < 2 ^ 31) (h3 : w.firstCol < 2 ^ 31) (h4 : w.nLines < 2 ^ 31)
    (hout : c.planned * c.lines < w.firstLine - 1 + w.nLines) :
    xrit2NetCDF wd env ls disk readPrologue q (some text) = .terminate := by
  obtain ⟨hd, dd, sg, st, px, p, g1, ⟨⟨s', e1, e7, e2, _, e3, _⟩, ⟨i', e4, e8, e5, e6⟩, ⟨nav, n1, n2, n3, n4, n5⟩, _⟩, g3, g4, g5, g6⟩ :=
    gather_spec h.onDisk ls fa present h.inside h.some_ h.found
  obtain rfl : sg = s' := Option.some.inj (g3.symm.trans e1)
  obtain rfl : st = i' := Option.some.inj (g4.symm.trans e4)
  have hc := h.cols
  have hsz := h.size
  have hlines : c.planned * c.lines < 2 ^ 31 := Nat.lt_of_le_of_lt (Nat.le_mul_of_pos_right _ hc) hsz
  have hh' : int32 ((st.lines : Int) * (sg.plannedEnd : Int)) = .ok ((c.planned * c.lines : Nat) : Int) := by
    rw [e3, e6, ← Int.natCast_mul, Nat.mul_comm]
    exact int32_nat hlines
  obtain ⟨f, f1, f2⟩ := h.prologue
  have hp : prologueFile ls fa = some f := by rw [prologueFile, f1]
  have ha : areaAsked (some text) = .ok (some ⟨(w.firstLine : Int) - 1, w.nLines, (w.firstCol : Int) - 1, w.nCols⟩) := by
    rw [areaAsked, areaOf_text ht h2 h3]
    rfl
  rw [xrit2NetCDF_run _ pro hd sg st px ha (product_of h.asked) hp f2 g1, writeNetcdf, hh', Outcome.ok_bind, subarea, inside,
    if_neg (by dsimp only; omega)]
  dsimp only
  have hi : int32 (((c.planned * c.lines : Nat) : Int) - (w.nLines : Int)) = .ok (((c.planned * c.lines : Nat) : Int) - (w.nLines : Int)) := by
    rw [int32, if_pos (by omega)]
  rw [hi, Outcome.ok_bind, if_pos (by omega)]
  rfl

/-- The name of the file has the channel and the time, and not the satellite: what two of them have seen at the same time goes to
the same file, and replaces what is there. -/
theorem C94_violated_name (channel : Nat) (s s' : Nat) (h : s ∈ [321, 322, 323, 324]) (h' : s' ∈ [321, 322, 323, 324])
    (y mo d hh mi : Nat) : ncName (chname (bytesOf (HritTexts.channelName s channel))) y mo d hh mi =
      ncName (chname (bytesOf (HritTexts.channelName s' channel))) y mo d hh mi := by
  simp only [List.mem_cons, List.not_mem_nil, or_false] at h h'
  rcases h with rfl | rfl | rfl | rfl <;> rcases h' with rfl | rfl | rfl | rfl <;> rfl

end

/-- A file whose header says that it is segment 0, or has a number larger than that of the segments planned, makes the
programs write outside of an array. -/
theorem C94_violated_sequence (env : Env) (ls : Bytes → List Bytes) (disk : Disk) (fa : FileAccess) (f : Bytes) (file : Bytes)
    (hd : Header) (dd : Data) (x : Hrit.Written) (s : Hrit.SegmentId) (hg : glob ls (pattern fa) = [f]) (hf : disk f = some file)
    (hr : Hrit.readFile env file = .ok (hd, dd, x)) (hs : hd.segmentId = some s) (hfo : s.format ≠ 0)
    (hseq : s.sequence = 0 ∨ s.plannedEnd < s.sequence) : gather env ls disk fa = .ub := by
  rw [gather, hg, if_neg (by simp), readFiles, hf]
  simp only [hr, uncaught, readFiles, Outcome.ok_bind, Outcome.pure_eq, Option.map_some, gatherRead, List.head?_cons, Option.bind_some, hs,
    if_neg hfo, place, List.length_replicate, if_pos hseq, Outcome.ub_bind]

/-- No files of the product: status 1. -/
theorem C94_nothing (env : Env) (ls : Bytes → List Bytes) (disk : Disk) (creates : Bytes → Bool) (a : Asked) (fa : FileAccess)
    (ha : OptionsOf a fa) (hg : glob ls (pattern fa) = []) (format : Option Bytes) (normalize : Bool) (overlay : Option Bytes) :
    xrit2Image env ls disk creates a format normalize overlay = .ok ⟨1, none⟩ := by
  rw [xrit2Image, product_of ha]
  dsimp only
  rw [gather, if_pos hg]
  rfl

/-- Unless there is one prologue file, and only one, the status is 1 and nothing is written. -/
theorem C94_one_prologue (wd : World) (env : Env) (ls : Bytes → List Bytes) (disk : Disk)
    (readPrologue : Bytes → Outcome (Option XritDataset.Prologue)) (a : Asked) (fa : FileAccess) (ha : OptionsOf a fa)
    (hn : (glob ls (Xrit.prologuePattern fa)).length ≠ 1) :
    xrit2NetCDF wd env ls disk readPrologue a none = .ok ⟨1, none⟩ := by
  have hp : prologueFile ls fa = none := by
    rw [prologueFile]
    split
    · rename_i f e
      rw [e] at hn
      exact absurd rfl hn
    · rfl
  unfold xrit2NetCDF
  rw [areaAsked, Outcome.ok_bind]
  unfold netcdfOfArea
  rw [product_of ha]
  dsimp only
  rw [hp]

/-- The name of the variable, that the name of the file begins with, is the text of the channel with `_` for every blank and
dot, so that it is a name of NetCDF and the file has one extension. -/
theorem C94_channel_name (s : Hrit.SegmentId) (text : String) (ht : HritTexts.channelName s.spacecraft s.channel = text) :
    (XritTools.channelText s).length = text.length ∧
    (∀ c ∈ XritTools.channelText s, c ≠ 32 ∧ c ≠ 46) ∧
    ∀ (k : Nat) (c : Char), text.toList[k]? = some c → c.toNat < 128 → c ≠ ' ' → c ≠ '.' →
      (XritTools.channelText s)[k]? = some (UInt8.ofNat c.toNat) := by
  subst ht
  refine ⟨by simp only [XritTools.channelText, chname, bytesOf, List.length_map]; rfl, fun c hc => ?_, fun k c hk h1 h2 h3 => ?_⟩
  · simp only [XritTools.channelText, chname, List.mem_map] at hc
    obtain ⟨b, -, rfl⟩ := hc
    split
    · decide
    · rename_i hb
      exact not_or.1 hb
  · simp only [XritTools.channelText, chname, bytesOf, List.map_map, List.getElem?_map, hk, Option.map_some, Function.comp]
    rw [if_neg]
    intro hb
    have hv : ∀ m < 128, UInt8.ofNat c.toNat = UInt8.ofNat m → c = Char.ofNat m := by
      intro m hm he
      have he := congrArg UInt8.toNat he
      simp only [UInt8.toNat_ofNat'] at he
      have : c.toNat = m := by omega
      rw [← this, Char.ofNat_toNat]
    rcases hb with hb | hb
    · exact h2 (hv 32 (by omega) hb)
    · exact h3 (hv 46 (by omega) hb)

/-- Without one of the four options the usage is shown, and the status is 1. -/
theorem C94_usage (wd : World) (env : Env) (ls : Bytes → List Bytes) (disk : Disk) (creates : Bytes → Bool)
    (readPrologue : Bytes → Outcome (Option XritDataset.Prologue)) (a : Asked)
    (ha : a.resolution = none ∨ a.productid1 = none ∨ a.productid2 = none ∨ a.timing = none) (format : Option Bytes) (normalize : Bool)
    (overlay : Option Bytes) : xrit2Image env ls disk creates a format normalize overlay = .ok ⟨1, none⟩ ∧
      xrit2NetCDF wd env ls disk readPrologue a none = .ok ⟨1, none⟩ := by
  have hp : a.product = none := by
    obtain ⟨_, r, p1, p2, t⟩ := a
    dsimp only at ha
    rw [Asked.product]
    rcases ha with rfl | rfl | rfl | rfl
    · rfl
    · cases r <;> rfl
    · cases r <;> cases p1 <;> rfl
    · cases r <;> cases p1 <;> cases p2 <;> rfl
  constructor
  · rw [xrit2Image, hp]
  · rw [xrit2NetCDF, areaAsked, Outcome.ok_bind, netcdfOfArea, hp]

/-- A product without a data format is said to be "dumped in binary format", and the status is 0, but nothing is written. -/
theorem C94_violated_unformatted (env : Env) (ls : Bytes → List Bytes) (disk : Disk) (creates : Bytes → Bool) (a : Asked)
    (fa : FileAccess) (ha : OptionsOf a fa) (f : Bytes) (file : Bytes) (hd : Header) (dd : Data) (x : Hrit.Written) (s : Hrit.SegmentId)
    (hg : glob ls (pattern fa) = [f]) (hf : disk f = some file) (hr : Hrit.readFile env file = .ok (hd, dd, x))
    (hs : hd.segmentId = some s) (hfo : s.format = 0) (format : Option Bytes) (normalize : Bool) (overlay : Option Bytes) :
    xrit2Image env ls disk creates a format normalize overlay = .ok ⟨0, none⟩ := by
  rw [xrit2Image, product_of ha]
  dsimp only
  rw [gather, hg, if_neg (by simp), readFiles, hf]
  simp only [hr, uncaught, readFiles, Outcome.ok_bind, Outcome.pure_eq, Option.map_some, gatherRead, List.head?_cons, Option.bind_some, hs,
    if_pos hfo]

open Msat.Xrit (globMatch quest slash dash under underscoreit) in
/-- The pattern of the tools, without the directory. -/
theorem pattern_match (fa : FileAccess) (hp : PlainProduct fa) (n : Bytes) :
    globMatch (fa.resolution ++ str "-???-??????-" ++ underscoreit fa.productid1 12 ++ [dash] ++
      underscoreit fa.productid2 9 ++ [dash] ++ str "0?????___" ++ [dash] ++ fa.timing ++ [dash] ++ str "?_") n = true ↔
    IsSegmentFile fa.resolution fa.productid1 fa.productid2 fa.timing n := by
  have e : fa.resolution ++ str "-???-??????-" ++ underscoreit fa.productid1 12 ++ [dash] ++
      underscoreit fa.productid2 9 ++ [dash] ++ str "0?????___" ++ [dash] ++ fa.timing ++ [dash] ++ str "?_" =
      fa.resolution ++ (str "-???-??????-" ++
      ((XritSpec.paddedTo fa.productid1 12 ++ str "-" ++ XritSpec.paddedTo fa.productid2 9 ++ str "-" ++ str "0")
       ++ (List.replicate 5 quest ++ ((str "___" ++ str "-" ++ fa.timing ++ str "-") ++ (List.replicate 1 quest ++ str "_"))))) := by
    rw [Xrit.underscoreit_eq hp.fit1, Xrit.underscoreit_eq hp.fit2, show [dash] = str "-" from rfl,
      show str "0?????___" = str "0" ++ (List.replicate 5 quest ++ str "___") from rfl,
      show str "?_" = List.replicate 1 quest ++ str "_" from rfl]
    simp only [List.append_assoc]
  have hlit1 : quest ∉ XritSpec.paddedTo fa.productid1 12 ++ str "-" ++ XritSpec.paddedTo fa.productid2 9 ++ str "-" ++ str "0" := by
    simp only [List.mem_append, not_or]
    exact ⟨⟨⟨⟨Xrit.quest_not_padded (noq hp.p1), by decide⟩, Xrit.quest_not_padded (noq hp.p2)⟩, by decide⟩, by decide⟩
  have hlit2 : quest ∉ str "___" ++ str "-" ++ fa.timing ++ str "-" := by
    simp only [List.mem_append, not_or]
    exact ⟨⟨⟨by decide, by decide⟩, noq hp.time⟩, by decide⟩
  have hlit3 : quest ∉ str "_" := by decide
  have hpad : ∀ c : Bytes, c.length = 5 → XritSpec.paddedTo (str "0" ++ c) 9 = str "0" ++ (c ++ str "___") := by
    intro c hc
    rw [XritSpec.paddedTo, XritSpec.padded, show 9 - (str "0" ++ c).length = 3 by
      rw [List.length_append, hc]; rfl]
    simp only [List.append_assoc]; rfl
  simp only [e, Xrit.globMatch_append, Xrit.globMatch_lit (noq hp.res), Xrit.wild, Xrit.globMatch_lit hlit1, Xrit.globMatch_any,
    Xrit.globMatch_lit hlit2, Xrit.globMatch_lit hlit3, IsSegmentFile, XritSpec.longName]
  constructor
  · rintro ⟨_, _, rfl, rfl, _, _, rfl, ⟨a, b, rfl, ha, hb⟩, _, _, rfl, rfl, c, _, rfl, hc, _, _, rfl, rfl, d, _, rfl, hd, rfl⟩
    exact ⟨a, b, c, d, ha, hb, hc, hd, by rw [hpad c hc]; simp only [List.append_assoc]⟩
  · rintro ⟨a, b, c, d, ha, hb, hc, hd, rfl⟩
    rw [hpad c hc]
    exact ⟨_, (str "-" ++ a ++ str "-" ++ b ++ str "-") ++
      ((XritSpec.paddedTo fa.productid1 12 ++ str "-" ++ XritSpec.paddedTo fa.productid2 9 ++ str "-" ++ str "0")
       ++ (c ++ ((str "___" ++ str "-" ++ fa.timing ++ str "-") ++ (d ++ str "_")))),
      by simp only [List.append_assoc],
      rfl, _, _, rfl, ⟨a, b, rfl, ha, hb⟩, _, _, rfl, rfl, c, _, rfl, hc, _, _, rfl, rfl, d, _, rfl, hd, rfl⟩

open Msat.Xrit (globMatch quest slash dash under underscoreit) in
/-- Which files are taken for segments of the product: those of the directory named as segments of it, compressed or not. -/
theorem C94_found (ls : Bytes → List Bytes) (fa : FileAccess) (hp : PlainProduct fa) (f : Bytes) :
    f ∈ glob ls (pattern fa) ↔ ∃ n ∈ ls fa.directory, f = fa.directory ++ str "/" ++ n ∧
      IsSegmentFile fa.resolution fa.productid1 fa.productid2 fa.timing n := by
  have hns : slash ∉ fa.resolution ++ str "-???-??????-" ++ underscoreit fa.productid1 12 ++ [dash] ++
      underscoreit fa.productid2 9 ++ [dash] ++ str "0?????___" ++ [dash] ++ fa.timing ++ [dash] ++ str "?_" := by
    simp only [List.mem_append, not_or, Xrit.underscoreit_eq hp.fit1, Xrit.underscoreit_eq hp.fit2]
    exact ⟨⟨⟨⟨⟨⟨⟨⟨⟨⟨nos hp.res, by decide⟩, Xrit.slash_not_padded (nos hp.p1)⟩, by decide⟩,
      Xrit.slash_not_padded (nos hp.p2)⟩, by decide⟩, by decide⟩, by decide⟩, nos hp.time⟩, by decide⟩, by decide⟩
  have e : pattern fa = fa.directory ++ slash :: (fa.resolution ++ str "-???-??????-" ++ underscoreit fa.productid1 12 ++ [dash] ++
      underscoreit fa.productid2 9 ++ [dash] ++ str "0?????___" ++ [dash] ++ fa.timing ++ [dash] ++ str "?_") := by
    simp only [pattern, List.append_assoc, List.cons_append, List.nil_append]
  rw [e, Xrit.glob_at hns]
  simp only [List.mem_map, List.mem_filter, pattern_match fa hp]
  exact ⟨fun ⟨n, ⟨a, b⟩, c⟩ => ⟨n, a, c.symm, b⟩, fun ⟨n, a, c, b⟩ => ⟨n, ⟨a, b⟩, c.symm⟩⟩

/-! ### Cases -/

/-- The two segments of channel IR_039 of a product, and their prologue. -/
def xtFile (i : Nat) : Bytes :=
  if i = 0 then str "/d/H-000-MSG1__-MSG1________-IR_039___-000001___-t-C_"
  else str "/d/H-000-MSG1__-MSG1________-IR_039___-000002___-t-C_"
def xtListing (d : Bytes) : List Bytes :=
  if d = str "/d" then [str "H-000-MSG1__-MSG1________-IR_039___-000002___-t-C_", str "x",
    str "H-000-MSG1__-MSG1________-_________-PRO______-t-__", str "H-000-MSG1__-MSG1________-IR_039___-000001___-t-C_"]
  else []
def xtDisk : Disk := fun f =>
  if f = xtFile 0 then some (fileOf 0 (aSegmentFile 0) [9, 9] [])
  else if f = xtFile 1 then some (fileOf 0 (aSegmentFile 1) [9, 9] []) else none
def xtAsked : Asked := ⟨some (str "/d"), some (str "H"), some (str "MSG1"), some (str "IR_039"), some (str "t")⟩
def xtAccess : FileAccess := ⟨str "/d", str "H", str "MSG1", str "IR_039", str "t"⟩
def xtCommon : Common := ⟨321, 4, 2, 2, 10, 2, 1856, -13642337, -13642337, 1856, 1856⟩

theorem xt_onDisk : OnDisk aDecoder xtDisk xtFile xtCommon (fun _ => List.range (2 * 1856)) := by
  refine ⟨fun i _ => by rw [xtFile]; split <;> decide, by decide, fun _ => rfl, fun i hi => ?_⟩
  have hi : i < 2 := hi
  refine ⟨aSegmentFile i, [9, 9], [], 1, 1, ?_, aSegmentFile_ok i hi, rfl, by decide, rfl, rfl, rfl, by simp [xtCommon]⟩
  have : i = 0 ∨ i = 1 := by omega
  rcases this with rfl | rfl
  · rw [xtDisk, if_pos rfl]
  · rw [xtDisk, if_neg (by decide), if_pos rfl]

theorem xt_found : glob xtListing (pattern xtAccess) = [1, 0].map xtFile := by decide +kernel

/-- A picture of it: everything that `C94_image` and `C94_lines` ask for. -/
example : OptionsOf xtAsked xtAccess ∧ (∀ i ∈ [1, 0], i < xtCommon.planned) ∧ xtCommon.planned * xtCommon.lines = 3712 ∧
    xtCommon.channel ≠ 12 ∧ 0 < xtCommon.cols ∧ 0 < xtCommon.lines :=
  ⟨⟨rfl, rfl, rfl, rfl, rfl⟩, by decide⟩

/-- A computer in the zone one hour east of Greenwich (`timezone` is -3600). -/
def xtWorld : World := ⟨fun y mo d h mi s => Datetime.mktimeUTC y mo d h mi s - 3600, -3600, fun _ => true⟩

theorem xt_ready : NcReady xtWorld aDecoder xtListing xtDisk (fun _ => .ok (some aPrologue)) xtAsked xtAccess xtFile xtCommon
    (fun _ => List.range (2 * 1856)) [1, 0] aPrologue := by
  refine ⟨xt_onDisk, ⟨rfl, rfl, rfl, rfl, rfl⟩, ⟨str "/d/H-000-MSG1__-MSG1________-_________-PRO______-t-__", ?_, rfl⟩, by decide, by decide, xt_found, by simp [aPrologue], by decide, by decide, by decide, by decide,
    by decide, fun _ => rfl⟩
  decide +kernel

/-- The window of the lines from the 1856th to the 1858th and of the second column. -/
example : Window.In ⟨1856, 3, 2, 1⟩ (xtCommon.planned * xtCommon.lines) xtCommon.cols ∧
    Asks (xtCommon.planned * xtCommon.lines) xtCommon.cols ⟨1856, 3, 2, 1⟩ (some (str "1856,3,2,01")) := by
  refine ⟨by unfold Window.In; decide, 4, 1, 1, 2, ?_⟩
  decide +kernel

/-- The time of the prologue is the 24th of October 2014, 12:00:11. -/
example : aPrologue.start = Time.cdsShortOf 20750 43211000 ∧ Spec.ValidDate 2014 10 24 ∧
    Spec.daysBetweenYears 1958 2014 + Spec.daysBeforeMonth 2014 10 + (24 - 1) = 20750 + 43211000 / 86400000 ∧
    xtWorld.mktime 2014 10 24 (43211000 / 3600000 % 24 : Nat) (43211000 / 60000 % 60 : Nat) (43211000 / 1000 % 60 : Nat) =
      86400 * ((20750 : Int) - 4383) + (43211000 / 1000 : Nat) + xtWorld.timezone := by
  refine ⟨rfl, by unfold Spec.ValidDate; decide, by decide +kernel, by decide +kernel⟩

/-- Channel 4 has constants. -/
example : ∃ k, SeviriSpec.constants xtCommon.channel = some k := ⟨_, rfl⟩

/-- A window that is not in the image. -/
example : Window.Text ⟨3712, 2, 1, 1⟩ (str "3712,2,1,1") ∧ xtCommon.planned * xtCommon.lines < 3712 - 1 + 2 :=
  ⟨⟨4, 1, 1, 1, by decide +kernel⟩, by decide⟩

/-- The whole image as a window. -/
example : Window.Text ⟨1, xtCommon.planned * xtCommon.lines, 1, xtCommon.cols⟩ (str "1,3712,1,2") := ⟨1, 4, 1, 1, by decide +kernel⟩

/-- Files of one line of two samples that say to be segment 0 of 2, and a segment without a data format. -/
example : (match Hrit.readFile aDecoder (fileOf 0 [.imageStructure 10 2 1 1, .segmentId 321 4 0 1 2 2] [9, 9] []) with
      | .ok (h, _, _) => h.segmentId.map fun s => (s.sequence, s.format)
      | _ => none) = some (0, 2) ∧
    (match Hrit.readFile aDecoder (fileOf 0 [.imageStructure 16 1 1 0, .segmentId 321 4 1 1 2 0] [9, 9] []) with
      | .ok (h, _, _) => h.segmentId.map fun s => (s.sequence, s.format)
      | _ => none) = some (1, 0) := by
  decide +kernel

end Msat.Props
