import Verif.Lemmas.HriFile

namespace Msat.Props
open Hri HriSpec

/-- What a line of an image is after reading.  Of a line in two halves, the second begins two pixels early (see C33). -/
def readLine (f : Format) (b : Band) (line : Bytes) : List (Option UInt8) :=
  if b = .VIS then (line.take (width f - 2) ++ line.drop (width f)).map some ++ [none, none] else line.map some

/-- Line `j` of image `k` after `i` groups. -/
def Good (f : Format) (b : Band) (p : Nat → Bytes) (i : Nat) (img : Image) : Prop :=
  WF img (width f * perGroup b) (groupsOf f * perGroup b) ∧
    ∀ j < groupsOf f * perGroup b, row img.data (width f * perGroup b) j =
      if j < perGroup b * i then readLine f b (p j) else List.replicate (width f * perGroup b) none

theorem putLine_take (img : Image) (d e : Bytes) (n : Nat) (linenum : Int) (h : d.length = n) :
    putLine img (d ++ e) n linenum = putLine img d n linenum := by
  unfold putLine copyInto
  simp only [Int.toNat_natCast, List.length_append, take_app h]
  rw [List.take_of_length_le (Nat.le_of_eq h)]
  simp only [h, Nat.le_refl, Nat.le_add_right]

theorem putHalfline_take (img : Image) (d e : Bytes) (n : Nat) (linenum : Int) (first : Bool) (h : d.length = n) :
    putHalfline img (d ++ e) n linenum first = putHalfline img d n linenum first := by
  unfold putHalfline copyInto
  simp only [Int.toNat_natCast, List.length_append, take_app h]
  rw [List.take_of_length_le (Nat.le_of_eq h)]
  simp only [h, Nat.le_refl, Nat.le_add_right]

/-- A full line. -/
theorem put_full (f : Format) (b : Band) (p : Nat → Bytes) (i : Nat) (img : Image) (g : Good f b p i img) (hb : b ≠ .VIS)
    (hi : i < groupsOf f) (e : Bytes) (hl : (p i).length = width f) :
    ∃ img', putLine img (p i ++ e) img.npixels i = .ok img' ∧ Good f b p (i + 1) img' := by
  obtain ⟨wf, rows⟩ := g
  have hp : perGroup b = 1 := if_neg hb
  rw [hp, Nat.mul_one, Nat.mul_one] at wf
  simp only [hp, Nat.mul_one, Nat.one_mul] at rows
  obtain ⟨img', e1, wf', r⟩ := putLine_wf wf hi hl
  refine ⟨img', ?_, ?_⟩
  · rw [putLine_take _ _ _ _ _ (by rw [hl, wf.np]), e1]
  · unfold Good
    simp only [hp, Nat.mul_one, Nat.one_mul]
    refine ⟨wf', fun j hj => ?_⟩
    rw [r j]
    by_cases h : j = i
    · subst h
      rw [if_pos rfl, if_pos (by omega), readLine, if_neg hb]
    · rw [if_neg h, rows j hj]
      by_cases h2 : j < i
      · rw [if_pos h2, if_pos (by omega)]
      · rw [if_neg h2, if_neg (by omega)]

/-- Two halves of a line `n` that has not been written. -/
theorem put_halves {img : Image} {w nl n : Nat} (wf : WF img (w * 2) nl) (hn : n < nl)
    (fresh : row img.data (w * 2) n = List.replicate (w * 2) none) (l : Bytes) (h1 : (l.take w).length = w) (h2 : (l.drop w).length = w)
    (e1 e2 : Bytes) :
    ∃ img1 img2, putHalfline img (l.take w ++ e1) (img.npixels / 2 : Nat) n true = .ok img1 ∧
      putHalfline img1 (l.drop w ++ e2) (img1.npixels / 2 : Nat) n false = .ok img2 ∧ WF img2 (w * 2) nl ∧
      ∀ m, row img2.data (w * 2) m =
        if m = n then (l.take (w - 2) ++ l.drop w).map some ++ [none, none] else row img.data (w * 2) m := by
  have hh : img.halflin = w := by have := wf.hf; omega
  have hnp : img.npixels / 2 = w := by have := wf.np; omega
  have hw : 2 < w := by have := wf.h2; omega
  obtain ⟨img1, p1, wf1, hh1, r1⟩ := putHalf_wf wf hn (d := l.take w) (by rw [h1, hh]) true
  have hnp1 : img1.npixels / 2 = w := by have := wf1.np; omega
  obtain ⟨img2, p2, wf2, _, r2⟩ := putHalf_wf wf1 hn (d := l.drop w) (by rw [h2, hh1, hh]) false
  refine ⟨img1, img2, ?_, ?_, wf2, ?_⟩
  · rw [putHalfline_take _ _ _ _ _ _ (by rw [h1, hnp]), hnp]
    rw [hh] at p1
    exact p1
  · rw [putHalfline_take _ _ _ _ _ _ (by rw [h2, hnp1]), hnp1]
    rw [hh1, hh] at p2
    exact p2
  · intro m
    rw [r2 m]
    by_cases hm : m = n
    · rw [if_pos hm, if_pos hm, if_neg (by simp), r1 n, if_pos rfl, if_pos rfl, fresh, hh1, hh, List.drop_replicate]
      have hl1 : ((l.take w).map some).length = w := by rw [List.length_map, h1]
      rw [List.take_append_of_le_length (by omega), List.drop_append,
        List.drop_of_length_le (l := (l.take w).map some) (by omega), List.nil_append, List.drop_replicate, hl1]
      rw [List.map_append, ← List.map_take, List.take_take, Nat.min_eq_left (by omega)]
      congr 1
      rw [show w * 2 - w - (w * 2 - 2 - w) = 2 by omega]
      rfl
    · rw [if_neg hm, if_neg hm, r1 m, if_neg hm]

/-- Two lines in two halves each. -/
theorem put_group (f : Format) (p : Nat → Bytes) (i : Nat) (img : Image) (g : Good f .VIS p i img)
    (hi : i < groupsOf f) (e1 e2 e3 e4 : Bytes)
    (h1 : ((p (2 * i)).take (width f)).length = width f) (h2 : ((p (2 * i)).drop (width f)).length = width f)
    (h3 : ((p (2 * i + 1)).take (width f)).length = width f) (h4 : ((p (2 * i + 1)).drop (width f)).length = width f) :
    ∃ i1 i2 i3 i4, putHalfline img ((p (2 * i)).take (width f) ++ e1) (img.npixels / 2 : Nat) (i * 2 + 0 : Nat) true = .ok i1 ∧
      putHalfline i1 ((p (2 * i)).drop (width f) ++ e2) (i1.npixels / 2 : Nat) (i * 2 + 0 : Nat) false = .ok i2 ∧
      putHalfline i2 ((p (2 * i + 1)).take (width f) ++ e3) (i2.npixels / 2 : Nat) (i * 2 + 1 : Nat) true = .ok i3 ∧
      putHalfline i3 ((p (2 * i + 1)).drop (width f) ++ e4) (i3.npixels / 2 : Nat) (i * 2 + 1 : Nat) false = .ok i4 ∧
      Good f .VIS p (i + 1) i4 := by
  obtain ⟨wf, rows⟩ := g
  have hp : perGroup .VIS = 2 := rfl
  rw [hp] at wf
  simp only [hp] at rows
  obtain ⟨i1, i2, a1, a2, wf2, r2⟩ := put_halves (n := i * 2 + 0) wf (by omega)
    (by rw [rows _ (by omega), if_neg (by omega)]) (p (2 * i)) h1 h2 e1 e2
  obtain ⟨i3, i4, a3, a4, wf4, r4⟩ := put_halves (n := i * 2 + 1) wf2 (by omega)
    (by rw [r2, if_neg (by omega), rows _ (by omega), if_neg (by omega)]) (p (2 * i + 1)) h3 h4 e3 e4
  refine ⟨i1, i2, i3, i4, a1, a2, a3, a4, ?_⟩
  unfold Good
  simp only [hp]
  refine ⟨wf4, fun j hj => ?_⟩
  rw [r4 j, r2 j, rows j hj]
  by_cases j1 : j = i * 2 + 1
  · subst j1
    rw [if_pos rfl, if_pos (by omega), readLine, if_pos rfl, show i * 2 + 1 = 2 * i + 1 by omega]
  · rw [if_neg j1]
    by_cases j0 : j = i * 2 + 0
    · subst j0
      rw [if_pos rfl, if_pos (by omega), readLine, if_pos rfl, show i * 2 + 0 = 2 * i by omega]
    · rw [if_neg j0]
      by_cases h : j < 2 * i
      · rw [if_pos h, if_pos (by omega)]
      · rw [if_neg h, if_neg (by omega)]

/-- The steps for the bands of a file. -/
def stepsFor : Nat → List Band → List Step
  | _, [] => []
  | k, b :: bs =>
    (if b = .VIS then [.half k 0 true, .half k 0 false, .half k 1 true, .half k 1 false] else [.full k]) ++ stepsFor (k + 1) bs

theorem body_append (tec : Bool) (id : UInt8) (i : Nat) (s1 s2 : List Step) : ∀ st, body tec false id i st (s1 ++ s2) =
    (body tec false id i st s1 >>= fun st => body tec false id i st s2) := by
  induction s1 with
  | nil => intro st; rfl
  | cons s s1 ih =>
    intro st
    show (step tec false id i st s >>= fun st => body tec false id i st (s1 ++ s2)) = _
    show _ = ((step tec false id i st s >>= fun st => body tec false id i st s1) >>= _)
    cases step tec false id i st s with
    | ok st' => simp only [Outcome.ok_bind]; exact ih st'
    | throws => rfl
    | terminate => rfl
    | ub => rfl
    | diverges => rfl

/-- A stream gives the lines `ls` and becomes `t`. -/
inductive Chain (tec : Bool) (f : Format) : In → List Bytes → In → Prop where
  | nil (s : In) : Chain tec f s [] s
  | cons (s s1 t : In) (l : Bytes) (ls : List Bytes) : l.length = width f →
      (∀ buf, dataline tec false (idOf f) s buf = .ok (l ++ buf.drop (width f), s1)) → Chain tec f s1 ls t → Chain tec f s (l :: ls) t

theorem Chain.uncons {tec : Bool} {f : Format} {s t : In} {l : Bytes} {ls : List Bytes} (h : Chain tec f s (l :: ls) t) :
    ∃ s1, l.length = width f ∧ (∀ buf, dataline tec false (idOf f) s buf = .ok (l ++ buf.drop (width f), s1)) ∧ Chain tec f s1 ls t := by
  cases h with
  | cons _ s1 _ _ _ h1 h2 h3 => exact ⟨s1, h1, h2, h3⟩

theorem Chain.append {tec : Bool} {f : Format} {s t u : In} {l1 l2 : List Bytes} (h1 : Chain tec f s l1 t) (h2 : Chain tec f t l2 u) :
    Chain tec f s (l1 ++ l2) u := by
  induction h1 with
  | nil s => exact h2
  | cons s s1 t l ls a b _ ih => exact .cons _ _ _ _ _ a b (ih h2)

theorem Chain.split {tec : Bool} {f : Format} {u : In} {l1 l2 : List Bytes} : ∀ {s : In}, Chain tec f s (l1 ++ l2) u →
    ∃ t, Chain tec f s l1 t ∧ Chain tec f t l2 u := by
  induction l1 with
  | nil => intro s h; exact ⟨s, .nil s, h⟩
  | cons l ls ih =>
    intro s h
    obtain ⟨s1, a, b, c⟩ := h.uncons
    obtain ⟨t, d, e⟩ := ih c
    exact ⟨t, .cons _ _ _ _ _ a b d, e⟩

/-- The subframes of a file, with what follows. -/
theorem chain_subs (f : Format) (rest : Bytes) (ss : List Sub) (h : ∀ s ∈ ss, s.Sized f) :
    Chain false f ⟨(ss.map (subFrames f)).flatten ++ rest, false⟩ (ss.map (·.line)) ⟨rest, false⟩ := by
  induction ss with
  | nil => exact .nil _
  | cons s ss ih =>
    have hs := h s List.mem_cons_self
    refine .cons _ ⟨(ss.map (subFrames f)).flatten ++ rest, false⟩ _ _ _ hs.line (fun buf => ?_)
      (ih fun s hs => h s (List.mem_cons_of_mem _ hs))
    rw [List.map_cons, List.flatten_cons, List.append_assoc]
    exact dataline_sub f s hs _ buf

theorem step_full (tec : Bool) (f : Format) (i k : Nat) (imgs : List Image) (img img' : Image) (s s1 : In) (l buf : Bytes)
    (hl : ∀ buf, dataline tec false (idOf f) s buf = .ok (l ++ buf.drop (width f), s1))
    (hk : imgs[k]? = some img) (hput : putLine img (l ++ buf.drop (width f)) img.npixels i = .ok img') :
    step tec false (idOf f) i ⟨imgs, s, buf⟩ (.full k) = .ok ⟨imgs.set k img', s1, l ++ buf.drop (width f)⟩ := by
  unfold step
  dsimp only
  rw [hl, Outcome.ok_bind]
  dsimp only
  rw [hk, Option.getD_some, hput]
  rfl

theorem step_half (tec : Bool) (f : Format) (i k second : Nat) (first : Bool) (imgs : List Image) (img img' : Image) (s s1 : In)
    (l buf : Bytes) (hl : ∀ buf, dataline tec false (idOf f) s buf = .ok (l ++ buf.drop (width f), s1)) (hk : imgs[k]? = some img)
    (hput : putHalfline img (l ++ buf.drop (width f)) (img.npixels / 2 : Nat) (i * 2 + second : Nat) first = .ok img') :
    step tec false (idOf f) i ⟨imgs, s, buf⟩ (.half k second first) = .ok ⟨imgs.set k img', s1, l ++ buf.drop (width f)⟩ := by
  unfold step
  dsimp only
  rw [hl, Outcome.ok_bind]
  dsimp only
  rw [hk, Option.getD_some, hput]
  rfl

/-- One group. -/
theorem body_group (tec : Bool) (f : Format) (pix : Nat → Nat → Bytes) (i : Nat) (hi : i < groupsOf f) (t : In) (bs : List Band) :
    ∀ (k : Nat) (imgs : List Image) (s : In) (buf : Bytes),
      (∀ m b, bs[m]? = some b → ∃ img, imgs[k + m]? = some img ∧ Good f b (pix (k + m)) i img) →
      Chain tec f s (group f pix i k bs) t →
      ∃ imgs' buf', body tec false (idOf f) i ⟨imgs, s, buf⟩ (stepsFor k bs) =
          .ok ⟨imgs', t, buf'⟩ ∧ imgs'.length = imgs.length ∧ (∀ m < k, imgs'[m]? = imgs[m]?) ∧
        ∀ m b, bs[m]? = some b → ∃ img, imgs'[k + m]? = some img ∧ Good f b (pix (k + m)) (i + 1) img := by
  induction bs with
  | nil =>
    intro k imgs s buf _ hc
    cases hc
    exact ⟨imgs, buf, rfl, rfl, fun _ _ => rfl, fun m b h => by simp at h⟩
  | cons b bs ih =>
    intro k imgs s buf hg hc
    obtain ⟨img, hk, good⟩ := hg 0 b rfl
    rw [Nat.add_zero] at hk good
    have hlt : k < imgs.length := by
      rcases Nat.lt_or_ge k imgs.length with h | h
      · exact h
      · rw [List.getElem?_eq_none h] at hk; cases hk
    -- what comes after the first band
    have tail : ∀ (img' : Image) (s' : In) (buf' : Bytes), Good f b (pix k) (i + 1) img' → Chain tec f s' (group f pix i (k + 1) bs) t →
        ∃ imgs' buf'', body tec false (idOf f) i ⟨imgs.set k img', s', buf'⟩ (stepsFor (k + 1) bs) =
          .ok ⟨imgs', t, buf''⟩ ∧ imgs'.length = imgs.length ∧ (∀ m < k, imgs'[m]? = imgs[m]?) ∧
        ∀ m b', (b :: bs)[m]? = some b' → ∃ img, imgs'[k + m]? = some img ∧ Good f b' (pix (k + m)) (i + 1) img := by
      intro img' s' buf' good' hc'
      obtain ⟨imgs', buf'', hb, hlen, hlow, hhigh⟩ := ih (k + 1) (imgs.set k img') s' buf' (by
        intro m b' hm
        obtain ⟨im, h1, h2⟩ := hg (m + 1) b' hm
        refine ⟨im, ?_, ?_⟩
        · rw [List.getElem?_set_ne (by omega), ← h1]
          congr 1; omega
        · rw [show k + 1 + m = k + (m + 1) by omega]; exact h2) hc'
      refine ⟨imgs', buf'', hb, by rw [hlen, List.length_set], ?_, ?_⟩
      · intro m hm
        rw [hlow m (by omega), List.getElem?_set_ne (by omega)]
      · intro m b' hm
        cases m with
        | zero =>
          rw [List.getElem?_cons_zero] at hm
          injection hm with hm
          subst hm
          exact ⟨img', by rw [Nat.add_zero, hlow k (by omega), List.getElem?_set_self hlt], good'⟩
        | succ m =>
          obtain ⟨im, h1, h2⟩ := hhigh m b' hm
          rw [show k + 1 + m = k + (m + 1) by omega] at h1 h2
          exact ⟨im, h1, h2⟩
    rw [group] at hc
    rw [stepsFor, body_append]
    by_cases hb : b = .VIS
    · subst hb
      rw [if_pos rfl] at hc ⊢
      simp only [pieces, if_true, List.cons_append, List.nil_append] at hc
      obtain ⟨s1, z1, l1, hc⟩ := hc.uncons
      obtain ⟨s2, z2, l2, hc⟩ := hc.uncons
      obtain ⟨s3, z3, l3, hc⟩ := hc.uncons
      obtain ⟨s4, z4, l4, hc⟩ := hc.uncons
      let b1 := (pix k (2 * i)).take (width f) ++ buf.drop (width f)
      let b2 := (pix k (2 * i)).drop (width f) ++ b1.drop (width f)
      let b3 := (pix k (2 * i + 1)).take (width f) ++ b2.drop (width f)
      obtain ⟨i1, i2, i3, i4, a1, a2, a3, a4, good'⟩ := put_group f (pix k) i img good hi (buf.drop (width f)) (b1.drop (width f))
        (b2.drop (width f)) (b3.drop (width f)) z1 z2 z3 z4
      obtain ⟨imgs', buf'', hb, r⟩ := tail i4 s4 ((pix k (2 * i + 1)).drop (width f) ++ b3.drop (width f)) good' hc
      refine ⟨imgs', buf'', ?_, r⟩
      rw [← hb]
      show ((step tec false (idOf f) i _ (.half k 0 true) >>= fun st => _) >>= _) = _
      rw [step_half tec f i k 0 true imgs img i1 s s1 _ _ l1 hk a1, Outcome.ok_bind]
      show ((step tec false (idOf f) i _ (.half k 0 false) >>= fun st => _) >>= _) = _
      rw [step_half tec f i k 0 false _ i1 i2 s1 s2 _ _ l2 (List.getElem?_set_self hlt) a2, Outcome.ok_bind, List.set_set]
      show ((step tec false (idOf f) i _ (.half k 1 true) >>= fun st => _) >>= _) = _
      rw [step_half tec f i k 1 true _ i2 i3 s2 s3 _ _ l3 (List.getElem?_set_self hlt) a3, Outcome.ok_bind, List.set_set]
      show ((step tec false (idOf f) i _ (.half k 1 false) >>= fun st => _) >>= _) = _
      rw [step_half tec f i k 1 false _ i3 i4 s3 s4 _ _ l4 (List.getElem?_set_self hlt) a4, Outcome.ok_bind, List.set_set]
      rfl
    · rw [if_neg hb] at hc ⊢
      rw [pieces, if_neg hb] at hc
      obtain ⟨s1, z1, l1, hc⟩ := Chain.uncons (ls := group f pix i (k + 1) bs) hc
      obtain ⟨i1, a1, good'⟩ := put_full f b (pix k) i img good hb hi (buf.drop (width f)) z1
      obtain ⟨imgs', buf'', hb', r⟩ := tail i1 s1 (pix k i ++ buf.drop (width f)) good' hc
      refine ⟨imgs', buf'', ?_, r⟩
      rw [← hb']
      show ((step tec false (idOf f) i _ (.full k) >>= fun st => _) >>= _) = _
      rw [step_full tec f i k imgs img i1 s s1 _ _ l1 hk a1, Outcome.ok_bind]
      rfl

/-- All the groups from the `i`-th on. -/
theorem loop_groups (tec : Bool) (f : Format) (pix : Nat → Nat → Bytes) (bs : List Band) (t : In) (n : Nat) :
    ∀ (i : Nat) (imgs : List Image) (s : In) (buf : Bytes), i + n ≤ groupsOf f →
      (∀ m b, bs[m]? = some b → ∃ img, imgs[m]? = some img ∧ Good f b (pix m) i img) →
      Chain tec f s ((List.range' i n).flatMap (fun i => group f pix i 0 bs)) t →
      ∃ imgs' buf', loop tec false (idOf f) (stepsFor 0 bs) n i ⟨imgs, s, buf⟩ = .ok ⟨imgs', t, buf'⟩ ∧ imgs'.length = imgs.length ∧
        ∀ m b, bs[m]? = some b → ∃ img, imgs'[m]? = some img ∧ Good f b (pix m) (i + n) img := by
  induction n with
  | zero =>
    intro i imgs s buf _ hg hc
    cases hc
    exact ⟨imgs, buf, rfl, rfl, hg⟩
  | succ n ih =>
    intro i imgs s buf hle hg hc
    rw [List.range'_succ, List.flatMap_cons] at hc
    obtain ⟨s1, h1, h2⟩ := hc.split
    obtain ⟨imgs1, buf1, e1, len1, -, g1⟩ := body_group tec f pix i (by omega) s1 bs 0 imgs s buf (by simpa using hg) h1
    obtain ⟨imgs2, buf2, e2, len2, g2⟩ := ih (i + 1) imgs1 s1 buf1 (by omega) (by simpa using g1) h2
    refine ⟨imgs2, buf2, ?_, by rw [len2, len1], ?_⟩
    · rw [loop, e1, Outcome.ok_bind]
      exact e2
    · rw [show i + (n + 1) = i + 1 + n by omega]; exact g2

end Msat.Props
