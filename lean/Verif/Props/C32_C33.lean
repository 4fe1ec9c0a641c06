import Verif.Spec.HriImage
import Verif.Lemmas.Outcome

namespace Msat.Props
open Hri HriSpec

/-- The images of `set_format_band`: all that the proofs need. -/
structure WF (img : Image) (npx nl : Nat) : Prop where
  np : img.npixels = npx
  nli : img.nlines = nl
  ll : img.lastlin + 1 = nl
  lp : img.lastpix + 1 = npx
  hf : 2 * img.halflin = npx
  sz : img.size ≠ 0
  h2 : 2 < img.halflin
  len : img.data.length = nl * npx

/-- `set_format_band` accepts exactly the bands of each format and makes an image of the documented size. -/
theorem C32_dimensions (f : Format) (b : Band) :
    match dims f b with
    | some (npx, nl) => ∃ img, setFormatBand f b = .ok img ∧ img.npixels = npx ∧ img.nlines = nl ∧
        img.size = nl * npx
    | none => setFormatBand f b = .terminate := by
  cases f <;> cases b <;> first
    | rfl
    | exact ⟨_, rfl, rfl, rfl, rfl⟩

theorem setFormatBand_wf {f : Format} {b : Band} {img : Image} (h : setFormatBand f b = .ok img) :
    ∃ npx nl, dims f b = some (npx, nl) ∧ WF img npx nl ∧ img.data = List.replicate (nl * npx) none := by
  cases f <;> cases b <;> first
    | (cases h; done)
    | (injection h with h; subst h
       refine ⟨_, _, rfl, ⟨rfl, rfl, rfl, rfl, rfl, ?_, ?_, ?_⟩, ?_⟩ <;>
         first | exact List.length_replicate | rfl | (show _ ≠ 0; decide +kernel) | (show 2 < _; decide +kernel))

/-- A history of writes of whole lines. -/
def putLines (img : Image) : List (Nat × Bytes) → Outcome Image
  | [] => .ok img
  | w :: ws => do
    let img ← putLine img w.2 img.npixels w.1
    putLines img ws

/-- The line `n` of a buffer. -/
def row (data : List (Option UInt8)) (npx n : Nat) : List (Option UInt8) := (data.drop (n * npx)).take npx

theorem getLine_wf {img : Image} {npx nl : Nat} (h : WF img npx nl) {n : Nat} (hn : n < nl) :
    getLine img n = .ok (some (row img.data npx n)) := by
  unfold getLine row
  have h1 := h.ll
  have h2 := h.np
  rw [if_neg h.sz, if_neg (by omega)]
  dsimp only
  rw [Int.toNat_natCast, h2, h.len, if_pos]
  have : (n + 1) * npx ≤ nl * npx := Nat.mul_le_mul_right _ (by omega)
  rw [Nat.add_mul] at this
  omega

theorem getPixel_wf {img : Image} {npx nl : Nat} (h : WF img npx nl) {n p : Nat} (hn : n < nl) (hp : p < npx) :
    ∃ v, getPixel img n p = .ok v ∧ (row img.data npx n)[p]? = some v := by
  have h1 := h.ll
  have h2 := h.np
  have h3 := h.lp
  have hlt : n * npx + p < img.data.length := by
    rw [h.len]
    have : (n + 1) * npx ≤ nl * npx := Nat.mul_le_mul_right _ (by omega)
    rw [Nat.add_mul] at this
    omega
  refine ⟨img.data[n * npx + p], ?_, ?_⟩
  · unfold getPixel
    rw [if_neg h.sz, if_neg (by omega), if_neg (by omega), Int.toNat_natCast, Int.toNat_natCast, h2,
      List.getElem?_eq_getElem hlt]
  · unfold row
    rw [List.getElem?_take_of_lt hp, List.getElem?_drop, List.getElem?_eq_getElem hlt]

theorem row_copy (data : List (Option UInt8)) (npx n : Nat) (d : List (Option UInt8)) (hd : d.length = npx)
    (hle : n * npx + npx ≤ data.length) :
    ∀ m, row (data.take (n * npx) ++ d ++ data.drop (n * npx + npx)) npx m = if m = n then d else row data npx m := by
  intro m
  unfold row
  have hl : (data.take (n * npx)).length = n * npx := by rw [List.length_take]; omega
  rcases Nat.lt_trichotomy m n with hm | rfl | hm
  · rw [if_neg (by omega)]
    have hmn : m * npx + npx ≤ n * npx := by
      have : (m + 1) * npx ≤ n * npx := Nat.mul_le_mul_right _ (by omega)
      rw [Nat.add_mul] at this; omega
    apply List.ext_getElem?
    intro i
    by_cases hi : i < npx
    · rw [List.getElem?_take_of_lt hi, List.getElem?_take_of_lt hi, List.getElem?_drop, List.getElem?_drop,
        List.append_assoc, List.getElem?_append_left (by omega), List.getElem?_take_of_lt (by omega)]
    · rw [List.getElem?_eq_none (by rw [List.length_take]; omega), List.getElem?_eq_none (by rw [List.length_take]; omega)]
  · rw [if_pos rfl, List.append_assoc, List.drop_left' hl, List.take_left' hd]
  · rw [if_neg (by omega)]
    have hmn : n * npx + npx ≤ m * npx := by
      have : (n + 1) * npx ≤ m * npx := Nat.mul_le_mul_right _ (by omega)
      rw [Nat.add_mul] at this; omega
    congr 1
    have hl2 : (data.take (n * npx) ++ d).length = n * npx + npx := by rw [List.length_append, hl, hd]
    rw [List.drop_append, List.drop_eq_nil_of_le (by omega), List.nil_append, List.drop_drop, hl2]
    congr 1
    omega

theorem putLine_wf {img : Image} {npx nl : Nat} (h : WF img npx nl) {n : Nat} {d : Bytes} (hn : n < nl)
    (hd : d.length = npx) :
    ∃ img', putLine img d img.npixels n = .ok img' ∧ WF img' npx nl ∧
      ∀ m, row img'.data npx m = if m = n then d.map some else row img.data npx m := by
  have h1 := h.ll
  have h2 := h.np
  have hle : n * npx + npx ≤ img.data.length := by
    rw [h.len]
    have : (n + 1) * npx ≤ nl * npx := Nat.mul_le_mul_right _ (by omega)
    rw [Nat.add_mul] at this
    omega
  refine ⟨{ img with data := img.data.take (n * npx) ++ d.map some ++ img.data.drop (n * npx + npx) }, ?_, ?_, ?_⟩
  · unfold putLine copyInto
    rw [if_neg h.sz, if_neg (by simp), if_neg (by omega), Int.toNat_natCast, Int.toNat_natCast, h2,
      if_pos ⟨by omega, hle⟩, Outcome.ok_bind, List.take_of_length_le (l := d) (by omega)]
    rfl
  · refine ⟨h.np, h.nli, h.ll, h.lp, h.hf, h.sz, h.h2, ?_⟩
    have := h.len
    simp only [List.length_append, List.length_take, List.length_map, List.length_drop]
    omega
  · exact row_copy _ _ _ _ (by simpa using hd) hle

theorem putLines_wf (ws : List (Nat × Bytes)) : ∀ {img : Image} {npx nl : Nat}, WF img npx nl →
    (∀ w ∈ ws, w.1 < nl ∧ w.2.length = npx) →
    ∃ img', putLines img ws = .ok img' ∧ WF img' npx nl ∧
      ∀ m, row img'.data npx m = match lastWrite ws m with
        | some d => d.map some
        | none => row img.data npx m := by
  induction ws with
  | nil => intro img npx nl h _; exact ⟨img, rfl, h, fun m => rfl⟩
  | cons w ws ih =>
    intro img npx nl h hw
    obtain ⟨hw1, hw2⟩ := hw w (by simp)
    obtain ⟨img1, e1, wf1, r1⟩ := putLine_wf h hw1 hw2
    obtain ⟨img2, e2, wf2, r2⟩ := ih wf1 (fun x hx => hw x (by simp [hx]))
    refine ⟨img2, ?_, wf2, ?_⟩
    · rw [putLines, e1, Outcome.ok_bind, e2]
    · intro m
      rw [r2 m, lastWrite]
      cases lastWrite ws m with
      | some d => rfl
      | none =>
        simp only
        rw [r1 m]
        by_cases hm : w.1 = m
        · rw [if_pos hm.symm, if_pos hm]
        · rw [if_neg (fun e => hm e.symm), if_neg hm]

/-- After any sequence of writes of lines to an image of any format and band, every line reads back as it was
last written, and every pixel of it; lines never written hold nothing.  No write leaves the image (the model
has undefined behaviour for that). -/
theorem C32_last_write (f : Format) (b : Band) (npx nl : Nat) (hdim : dims f b = some (npx, nl)) :
    ∃ img, setFormatBand f b = .ok img ∧
      ∀ ws : List (Nat × Bytes), (∀ w ∈ ws, w.1 < nl ∧ w.2.length = npx) →
        ∃ img', putLines img ws = .ok img' ∧
          ∀ n < nl, getLine img' n = .ok (some (content ws n npx)) ∧
            ∀ p < npx, ∃ v, getPixel img' n p = .ok v ∧ (content ws n npx)[p]? = some v := by
  have hd := C32_dimensions f b
  rw [hdim] at hd
  obtain ⟨img, hok, _⟩ := hd
  refine ⟨img, hok, ?_⟩
  intro ws hws
  obtain ⟨npx', nl', hdim', wf, hfresh⟩ := setFormatBand_wf hok
  rw [hdim] at hdim'
  obtain ⟨rfl, rfl⟩ : npx = npx' ∧ nl = nl' := by simpa using hdim'
  obtain ⟨img', e, wf', r⟩ := putLines_wf ws wf hws
  have hrow : ∀ n < nl, row img'.data npx n = content ws n npx := by
    intro n hn
    rw [r n]
    unfold content
    cases lastWrite ws n with
    | some d => rfl
    | none =>
      show row img.data npx n = List.replicate npx none
      unfold row
      rw [hfresh, List.drop_replicate, List.take_replicate, Nat.min_eq_left]
      have : (n + 1) * npx ≤ nl * npx := Nat.mul_le_mul_right _ (by omega)
      rw [Nat.add_mul] at this
      omega
  refine ⟨img', e, fun n hn => ⟨?_, fun p hp => ?_⟩⟩
  · rw [getLine_wf wf' hn, hrow n hn]
  · rw [← hrow n hn]
    exact getPixel_wf wf' hn hp

/-- Lines of a wrong size, and lines, pixels outside of the image, are not accepted (the program ends). -/
theorem C32_refused (f : Format) (b : Band) (npx nl : Nat) (hdim : dims f b = some (npx, nl)) (img : Image)
    (hok : setFormatBand f b = .ok img) (ws : List (Nat × Bytes)) (img' : Image)
    (hws : ∀ w ∈ ws, w.1 < nl ∧ w.2.length = npx) (hput : putLines img ws = .ok img') (d : Bytes)
    (size line pixel : Int) :
    ((size ≠ npx ∨ line < 0 ∨ (nl : Int) ≤ line) → putLine img' d size line = .terminate) ∧
    ((line < 0 ∨ (nl : Int) ≤ line) → getLine img' line = .terminate) ∧
    ((line < 0 ∨ (nl : Int) ≤ line ∨ pixel < 0 ∨ (npx : Int) ≤ pixel) → getPixel img' line pixel = .terminate) := by
  obtain ⟨npx', nl', hdim', wf, _⟩ := setFormatBand_wf hok
  rw [hdim] at hdim'
  obtain ⟨rfl, rfl⟩ : npx = npx' ∧ nl = nl' := by simpa using hdim'
  obtain ⟨img2, e, wf', _⟩ := putLines_wf ws wf hws
  rw [hput] at e
  injection e with e
  subst e
  have h1 := wf'.ll
  have h2 := wf'.np
  have h3 := wf'.lp
  refine ⟨?_, ?_, ?_⟩
  · intro h
    unfold putLine
    rw [if_neg wf'.sz, h2]
    split
    · rfl
    · rw [if_pos (by omega)]
  · intro h
    unfold getLine
    rw [if_neg wf'.sz, if_pos (by omega)]
  · intro h
    unfold getPixel
    rw [if_neg wf'.sz]
    split
    · rfl
    · rw [if_pos (by omega)]

/-- An image that has no format yet ignores lines and has no content. -/
theorem C32_no_format (d : Bytes) (size line pixel : Int) (half : Bool) :
    putLine .empty d size line = .ok .empty ∧ putHalfline .empty d size line half = .ok .empty ∧
    getLine .empty line = .ok none ∧ getPixel .empty line pixel = .ok (some 0) := ⟨rfl, rfl, rfl, rfl⟩

/-- Two lines are written in the infrared image of a B format file, one of them twice. -/
def someWrites : List (Nat × Bytes) :=
  [(3, List.replicate 1250 7), (624, List.replicate 1250 9), (3, List.replicate 1250 8)]

example : (dims .B .IR = some (1250, 625)) ∧ (∀ w ∈ someWrites, w.1 < 625 ∧ w.2.length = 1250) ∧
    content someWrites 3 1250 = (List.replicate 1250 8).map some ∧
    content someWrites 4 1250 = List.replicate 1250 none := by
  refine ⟨rfl, by decide +kernel, by decide +kernel, by decide +kernel⟩

/-! ## C33 -/

theorem drop_split {α : Type} (l : List α) (a k : Nat) : l.drop a = (l.drop a).take k ++ l.drop (a + k) := by
  rw [← List.drop_drop, List.take_append_drop]

theorem putHalf_wf {img : Image} {npx nl : Nat} (h : WF img npx nl) {n : Nat} {d : Bytes} (hn : n < nl)
    (hd : d.length = img.halflin) (half : Bool) :
    ∃ img', putHalfline img d img.halflin n half = .ok img' ∧ WF img' npx nl ∧ img'.halflin = img.halflin ∧
      ∀ m, row img'.data npx m = if m = n then
        (if half then d.map some ++ (row img.data npx n).drop img.halflin
         else (row img.data npx n).take (img.halflin - 2) ++ d.map some ++ (row img.data npx n).drop (npx - 2))
        else row img.data npx m := by
  have h1 := h.ll
  have h2 := h.np
  have h3 := h.hf
  have h4 := h.h2
  have hle : n * npx + npx ≤ img.data.length := by
    rw [h.len]
    have : (n + 1) * npx ≤ nl * npx := Nat.mul_le_mul_right _ (by omega)
    rw [Nat.add_mul] at this
    omega
  have hrl : (row img.data npx n).length = npx := by
    unfold row; rw [List.length_take, List.length_drop]; omega
  cases half with
  | true =>
    refine ⟨{ img with data := img.data.take (n * npx) ++ d.map some ++ img.data.drop (n * npx + img.halflin) },
      ?_, ?_, rfl, ?_⟩
    · unfold putHalfline copyInto
      rw [if_neg h.sz, if_neg (by simp), if_neg (by omega), Int.toNat_natCast, Int.toNat_natCast, h2, if_pos rfl,
        if_pos ⟨by omega, by omega⟩, Outcome.ok_bind, List.take_of_length_le (l := d) (by omega)]
      rfl
    · refine ⟨h.np, h.nli, h.ll, h.lp, h.hf, h.sz, h.h2, ?_⟩
      have := h.len
      simp only [List.length_append, List.length_take, List.length_map, List.length_drop]
      omega
    · intro m
      have e : img.data.take (n * npx) ++ d.map some ++ img.data.drop (n * npx + img.halflin)
          = img.data.take (n * npx) ++ (d.map some ++ (row img.data npx n).drop img.halflin)
            ++ img.data.drop (n * npx + npx) := by
        have : img.data.drop (n * npx + img.halflin)
            = (row img.data npx n).drop img.halflin ++ img.data.drop (n * npx + npx) := by
          unfold row
          rw [List.drop_take, List.drop_drop]
          have := drop_split img.data (n * npx + img.halflin) (npx - img.halflin)
          rwa [show n * npx + img.halflin + (npx - img.halflin) = n * npx + npx by omega] at this
        rw [this]
        simp only [List.append_assoc]
      show row (img.data.take (n * npx) ++ d.map some ++ img.data.drop (n * npx + img.halflin)) npx m = _
      rw [e, row_copy _ _ _ _ (by rw [List.length_append, List.length_map, List.length_drop]; omega) hle]
      rfl
  | false =>
    refine ⟨{ img with data := img.data.take (n * npx + img.halflin - 2) ++ d.map some
        ++ img.data.drop (n * npx + img.halflin - 2 + img.halflin) }, ?_, ?_, rfl, ?_⟩
    · unfold putHalfline copyInto
      rw [if_neg h.sz, if_neg (by simp), if_neg (by omega), Int.toNat_natCast, Int.toNat_natCast, h2,
        if_neg (by simp), if_pos ⟨by omega, by omega⟩, Outcome.ok_bind, List.take_of_length_le (l := d) (by omega)]
      rfl
    · refine ⟨h.np, h.nli, h.ll, h.lp, h.hf, h.sz, h.h2, ?_⟩
      have := h.len
      simp only [List.length_append, List.length_take, List.length_map, List.length_drop]
      omega
    · intro m
      have e1 : img.data.take (n * npx + img.halflin - 2)
          = img.data.take (n * npx) ++ (row img.data npx n).take (img.halflin - 2) := by
        unfold row
        rw [List.take_take, Nat.min_eq_left (by omega), ← List.take_add]
        congr 1
        omega
      have e2 : img.data.drop (n * npx + img.halflin - 2 + img.halflin)
          = (row img.data npx n).drop (npx - 2) ++ img.data.drop (n * npx + npx) := by
        unfold row
        rw [List.drop_take, List.drop_drop]
        rw [drop_split img.data (n * npx + img.halflin - 2 + img.halflin) 2]
        congr 1
        · congr 1
          · omega
          · congr 1; omega
        · congr 1; omega
      show row (img.data.take (n * npx + img.halflin - 2) ++ d.map some
        ++ img.data.drop (n * npx + img.halflin - 2 + img.halflin)) npx m = _
      rw [e1, e2]
      have e : img.data.take (n * npx) ++ (row img.data npx n).take (img.halflin - 2) ++ d.map some
          ++ ((row img.data npx n).drop (npx - 2) ++ img.data.drop (n * npx + npx))
          = img.data.take (n * npx) ++ ((row img.data npx n).take (img.halflin - 2) ++ d.map some
            ++ (row img.data npx n).drop (npx - 2)) ++ img.data.drop (n * npx + npx) := by
        simp only [List.append_assoc]
      rw [e, row_copy _ _ _ _ (by
        rw [List.length_append, List.length_append, List.length_take, List.length_map, List.length_drop]
        omega) hle]
      rfl

/-- The first half of a line is stored in the first half of the line; the rest of the image does not change.
Missing for C33: the second half. -/
theorem C33_first_half_partial (f : Format) (b : Band) (npx nl : Nat) (hdim : dims f b = some (npx, nl))
    (img : Image) (hok : setFormatBand f b = .ok img) (ws : List (Nat × Bytes)) (img1 : Image)
    (hws : ∀ w ∈ ws, w.1 < nl ∧ w.2.length = npx) (hput : putLines img ws = .ok img1)
    (n : Nat) (hn : n < nl) (d : Bytes) (hd : 2 * d.length = npx) :
    ∃ img2, putHalfline img1 d d.length n true = .ok img2 ∧
      getLine img2 n = .ok (some (d.map some ++ (content ws n npx).drop d.length)) ∧
      ∀ m < nl, m ≠ n → getLine img2 m = .ok (some (content ws m npx)) := by
  obtain ⟨img0, hok', H⟩ := C32_last_write f b npx nl hdim
  rw [hok] at hok'; injection hok' with h0; subst h0
  obtain ⟨img1', hput', H⟩ := H ws hws
  rw [hput] at hput'; injection hput' with h0; subst h0
  obtain ⟨npx', nl', hdim', wf, _⟩ := setFormatBand_wf hok
  rw [hdim] at hdim'
  obtain ⟨rfl, rfl⟩ : npx = npx' ∧ nl = nl' := by simpa using hdim'
  obtain ⟨img2, e, wf1, _⟩ := putLines_wf ws wf hws
  rw [hput] at e; injection e with h0; subst h0
  have hdl : d.length = img1.halflin := by have := wf1.hf; omega
  obtain ⟨img2, e2, wf2, _, r2⟩ := putHalf_wf wf1 hn hdl true
  have hrow : ∀ m < nl, row img1.data npx m = content ws m npx := by
    intro m hm
    have := (H m hm).1
    rw [getLine_wf wf1 hm] at this
    simpa using this
  refine ⟨img2, by rw [hdl]; exact e2, ?_, ?_⟩
  · rw [getLine_wf wf2 hn, r2 n, if_pos rfl, if_pos rfl, hrow n hn, hdl]
  · intro m hm hne
    rw [getLine_wf wf2 hm, r2 m, if_neg hne, hrow m hm]

/-- Half lines of any other size, and half lines outside of the image, are refused. -/
theorem C33_refused (f : Format) (b : Band) (npx nl : Nat) (hdim : dims f b = some (npx, nl))
    (img : Image) (hok : setFormatBand f b = .ok img) (ws : List (Nat × Bytes)) (img1 : Image)
    (hws : ∀ w ∈ ws, w.1 < nl ∧ w.2.length = npx) (hput : putLines img ws = .ok img1)
    (d : Bytes) (size n : Int) (first : Bool) (h : 2 * size ≠ npx ∨ n < 0 ∨ nl ≤ n) :
    putHalfline img1 d size n first = .terminate := by
  obtain ⟨npx', nl', hdim', wf, _⟩ := setFormatBand_wf hok
  rw [hdim] at hdim'
  obtain ⟨rfl, rfl⟩ : npx = npx' ∧ nl = nl' := by simpa using hdim'
  obtain ⟨img2, e, wf1, _⟩ := putLines_wf ws wf hws
  rw [hput] at e; injection e with h0; subst h0
  have hz : ¬ img1.size = 0 := wf1.sz
  have hh := wf1.hf
  have hl := wf1.ll
  unfold putHalfline
  rw [if_neg hz]
  by_cases h1 : size ≠ img1.halflin
  · rw [if_pos h1]
  · rw [if_neg h1, if_pos (by omega)]

/-- The second half of a line is stored two pixels too early: it overwrites the end of the first half, and the
last two pixels of the line are not written, whatever the format and the content. -/
theorem C33_violated_second_half (f : Format) (b : Band) (npx nl : Nat) (hdim : dims f b = some (npx, nl))
    (img : Image) (hok : setFormatBand f b = .ok img) (n : Nat) (hn : n < nl) (d1 d2 : Bytes)
    (h1 : 2 * d1.length = npx) (h2 : 2 * d2.length = npx) :
    ∃ img1 img2, putHalfline img d1 d1.length n true = .ok img1 ∧
      putHalfline img1 d2 d2.length n false = .ok img2 ∧
      getLine img2 n = .ok (some (d1.map some |>.take (d1.length - 2) |>.append (d2.map some ++ [none, none]))) ∧
      getLine img2 n ≠ .ok (some ((d1 ++ d2).map some)) := by
  obtain ⟨npx', nl', hdim', wf, hfresh⟩ := setFormatBand_wf hok
  rw [hdim] at hdim'
  obtain ⟨rfl, rfl⟩ : npx = npx' ∧ nl = nl' := by simpa using hdim'
  have hd1 : d1.length = img.halflin := by have := wf.hf; omega
  obtain ⟨img1, e1, wf1, hh, r1⟩ := putHalf_wf wf hn hd1 true
  have hd2 : d2.length = img1.halflin := by have := wf1.hf; omega
  obtain ⟨img2, e2, wf2, _, r2⟩ := putHalf_wf wf1 hn hd2 false
  have hf0 : row img.data npx n = List.replicate npx none := by
    unfold row
    rw [hfresh, List.drop_replicate, List.take_replicate, Nat.min_eq_left]
    have : (n + 1) * npx ≤ nl * npx := Nat.mul_le_mul_right _ (by omega)
    rw [Nat.add_mul] at this
    omega
  have hr1 : row img1.data npx n = d1.map some ++ List.replicate d1.length none := by
    rw [r1 n, if_pos rfl, if_pos rfl, hf0, List.drop_replicate]
    congr 2
    omega
  have hbig := wf.h2
  have hr2 : row img2.data npx n = (d1.map some).take (d1.length - 2) ++ (d2.map some ++ [none, none]) := by
    rw [r2 n, if_pos rfl, if_neg (by simp), hr1, ← hd2]
    rw [List.take_append_of_le_length (by rw [List.length_map]; omega), List.drop_append,
      List.drop_eq_nil_of_le (by rw [List.length_map]; omega), List.nil_append, List.drop_replicate,
      List.length_map, List.append_assoc]
    rw [show d2.length - 2 = d1.length - 2 by omega, show d1.length - (npx - 2 - d1.length) = 2 by omega]
    rfl
  refine ⟨img1, img2, by rw [hd1]; exact e1, by rw [hd2]; exact e2, ?_, ?_⟩
  · rw [getLine_wf wf2 hn, hr2]; rfl
  · rw [getLine_wf wf2 hn, hr2]
    intro h
    injection h with h
    injection h with h
    have : (none : Option UInt8) ∈ (d1 ++ d2).map some := by rw [← h]; simp
    simp at this

example : dims .A .VIS = some (5000, 5000) ∧ 2 * (List.replicate 2500 (1 : UInt8)).length = 5000 := ⟨rfl, by rw [List.length_replicate]⟩

end Msat.Props
