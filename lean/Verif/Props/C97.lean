import Verif.Lemmas.Outcome
import Verif.Props.C08
import Verif.Props.C09_C12
import Verif.Spec.XritDump
import Mathlib.Data.List.Forall2
import Mathlib.Tactic.Common

/-
C97 xritdump prints what the segments hold.
-/
namespace Msat.Props
open Msat Xrit XritDump XritDumpSpec
open Msat.XritSpec hiding sampleAt

theorem collect_map {α β : Type} (xs : List α) (f : α → Outcome β) (P : α → β → Prop)
    (h : ∀ x ∈ xs, ∃ v, f x = .ok v ∧ P x v) :
    ∃ vs, collect (xs.map f) = .ok vs ∧ List.Forall₂ P xs vs := by
  induction xs with
  | nil => exact ⟨[], rfl, .nil⟩
  | cons x xs ih =>
    obtain ⟨v, h1, h2⟩ := h x (by simp)
    obtain ⟨vs, h3, h4⟩ := ih (fun y hy => h y (by simp [hy]))
    exact ⟨v :: vs, by simp [collect, h1, h3], .cons h2 h4⟩

theorem collect_ub {α β : Type} (xs : List α) (f : α → Outcome β)
    (h : ∀ x ∈ xs, f x = .ub ∨ ∃ v, f x = .ok v) (hu : ∃ x ∈ xs, f x = .ub) :
    collect (xs.map f) = .ub := by
  induction xs with
  | nil => simp at hu
  | cons x xs ih =>
    rcases h x (by simp) with h1 | ⟨v, h1⟩
    · simp [collect, h1]
    · have : ∃ y ∈ xs, f y = .ub := by
        obtain ⟨y, hy, e⟩ := hu
        rcases List.mem_cons.1 hy with rfl | hy
        · rw [h1] at e; cases e
        · exact ⟨y, hy, e⟩
      simp [collect, h1, ih (fun y hy => h y (by simp [hy])) this]

theorem forall₂_range {β : Type} {P : Nat → β → Prop} {n : Nat} {vs : List β}
    (h : List.Forall₂ P (List.range n) vs) :
    vs.length = n ∧ ∀ k < n, ∃ v, vs[k]? = some v ∧ P k v := by
  have hl : vs.length = n := by have := h.length_eq; simpa using this.symm
  refine ⟨hl, fun k hk => ?_⟩
  have hk' : k < vs.length := by omega
  refine ⟨vs[k], List.getElem?_eq_getElem hk', ?_⟩
  have := List.Forall₂.get h (i := k) (by simpa using hk) hk'
  simpa using this

theorem shade_ok (s lo hi : Nat) (h1 : lo ≤ s) (h2 : s ≤ hi) (h3 : lo < hi) (h4 : hi < 2 ^ 16) :
    ∃ c, shade s lo hi = .ok c ∧ XritDumpSpec.Shows s lo hi c := by
  have e1 : (((s : Int) - lo) % 2 ^ 64).toNat * 8 % 2 ^ 64 = (s - lo) * 8 := by omega
  have e2 : (((hi : Int) - lo) % 2 ^ 64).toNat = hi - lo := by omega
  have hq : (s - lo) * 8 / (hi - lo) ≤ 8 := by
    rw [Nat.div_le_iff_le_mul_add_pred (by omega)]; omega
  have hl : (s - lo) * 8 / (hi - lo) < aachars.length := by
    have : aachars.length = 9 := by decide
    omega
  refine ⟨aachars[(s - lo) * 8 / (hi - lo)], ?_, fun h => ?_, fun h => ?_⟩
  · simp only [shade, e1, e2]
    rw [if_neg (by omega), List.getElem?_eq_getElem hl]
  · have : (s - lo) * 8 / (hi - lo) < 8 := by
      rw [Nat.div_lt_iff_lt_mul (by omega)]; omega
    revert this hl
    generalize (s - lo) * 8 / (hi - lo) = q
    intro hl hq
    have : ∀ q < 8, ∀ h : q < aachars.length, palette[q]? = some aachars[q] := by decide
    exact this q hq hl
  · have : (s - lo) * 8 / (hi - lo) = 8 := by
      subst h
      rw [Nat.mul_comm, Nat.mul_div_cancel _ (by omega)]
    simp only [this]
    rfl

theorem shade_uniform (s v : Nat) : shade s v v = .ub := by
  simp [shade]

theorem shade_below (s lo hi : Nat) (h1 : s < lo) (h2 : lo ≤ hi) (h3 : hi < 2 ^ 16) :
    shade s lo hi = .ub := by
  have e1 : (((s : Int) - lo) % 2 ^ 64).toNat * 8 % 2 ^ 64 = 2 ^ 64 - (lo - s) * 8 := by omega
  have e2 : (((hi : Int) - lo) % 2 ^ 64).toNat = hi - lo := by omega
  simp only [shade, e1, e2]
  by_cases h : hi - lo = 0
  · rw [if_pos h]
  · rw [if_neg h]
    have : 9 ≤ (2 ^ 64 - (lo - s) * 8) / (hi - lo) := by
      rw [Nat.le_div_iff_mul_le (by omega)]; omega
    rw [List.getElem?_eq_none (by have : aachars.length = 9 := by decide
                                  omega)]

/-- One step of a search for extremes. -/
theorem extremes_fold (l : List Nat) (a b : Nat) :
    let r := l.foldl (fun (a : Nat × Nat) v =>
      (if v < a.1 then v else a.1, if v > a.2 then v else a.2)) (a, b)
    (r.1 ≤ a ∧ (∀ v ∈ l, r.1 ≤ v) ∧ (r.1 = a ∨ r.1 ∈ l)) ∧
    (b ≤ r.2 ∧ (∀ v ∈ l, v ≤ r.2) ∧ (r.2 = b ∨ r.2 ∈ l)) := by
  induction l generalizing a b with
  | nil => simp
  | cons v l ih =>
    obtain ⟨⟨h1, h2, h3⟩, h4, h5, h6⟩ := ih (if v < a then v else a) (if v > b then v else b)
    simp only [List.foldl_cons]
    generalize l.foldl (fun (a : Nat × Nat) v =>
      (if v < a.1 then v else a.1, if v > a.2 then v else a.2))
      (if v < a then v else a, if v > b then v else b) = r at *
    refine ⟨⟨?_, ?_, ?_⟩, ?_, ?_, ?_⟩
    · split at h1 <;> omega
    · intro w hw
      rcases List.mem_cons.1 hw with rfl | hw
      · split at h1 <;> omega
      · exact h2 w hw
    · rcases h3 with h3 | h3
      · split at h3
        · right; simp [h3]
        · left; exact h3
      · right; simp [h3]
    · split at h4 <;> omega
    · intro w hw
      rcases List.mem_cons.1 hw with rfl | hw
      · split at h4 <;> omega
      · exact h5 w hw
    · rcases h6 with h6 | h6
      · split at h6
        · right; simp [h6]
        · left; exact h6
      · right; simp [h6]

theorem extremes_spec (l : List Nat) (hne : l ≠ []) (hb : ∀ v ∈ l, v < 2 ^ 16) :
    Least l (extremes l).1 ∧ Greatest l (extremes l).2 := by
  obtain ⟨⟨h1, h2, h3⟩, h4, h5, h6⟩ := extremes_fold l 0xffff 0
  obtain ⟨w, hw⟩ := List.exists_mem_of_ne_nil l hne
  refine ⟨⟨?_, h2⟩, ?_, h5⟩
  · rcases h3 with h3 | h3
    · have a := h2 w hw
      have b := hb w hw
      have : (extremes l).1 = w := by
        change (extremes l).1 = _ at h3
        change (extremes l).1 ≤ w at a
        omega
      rw [this]; exact hw
    · exact h3
  · rcases h6 with h6 | h6
    · have a := h5 w hw
      have : (extremes l).2 = w := by
        change (extremes l).2 = _ at h6
        change w ≤ (extremes l).2 at a
        omega
      rw [this]; exact hw
    · exact h6

/-- What is printed of segment `i`: that it is missing, or its extremes and three rows of fifty
characters for samples taken at regular distances. -/
def SegmentAs (da : DataAccess) (imgs : Nat → Option (List Nat)) (i : Nat) : SegmentDump → Prop
  | .missing => imgs i = none
  | .shown lo hi rows => ∃ img, imgs i = some img ∧ Least img lo ∧ Greatest img hi ∧ rows.length = 3 ∧
      ∀ y < 3, ∃ r, rows[y]? = some r ∧ r.length = 50 ∧ ∀ x < 50, ∃ s c,
        img[y * da.seglines / 3 * da.columns + x * da.columns / 50]? = some s ∧
        r[x]? = some c ∧ XritDumpSpec.Shows s lo hi c

theorem grid_lt {a b y x k m : Nat} (hy : y < k) (hx : x < m) (ha : 0 < a) (hb : 0 < b) :
    y * a / k * b + x * b / m < a * b := by
  have h1 : y * a / k < a := by
    rw [Nat.div_lt_iff_lt_mul (by omega), Nat.mul_comm a]
    exact Nat.mul_lt_mul_of_pos_right hy ha
  have h2 : x * b / m < b := by
    rw [Nat.div_lt_iff_lt_mul (by omega), Nat.mul_comm b]
    exact Nat.mul_lt_mul_of_pos_right hx hb
  have h3 : (y * a / k + 1) * b ≤ a * b := Nat.mul_le_mul_right _ h1
  rw [Nat.add_mul] at h3
  omega

theorem direct_of {da : DataAccess} {disk : Bytes → Outcome SegData} {imgs : Nat → Option (List Nat)}
    {total : Nat} (h : Product da disk imgs total) (i : Nat) :
    direct da disk i = .ok ((imgs i).map fun img => ⟨some img⟩) := by
  unfold direct
  cases he : imgs i with
  | none => rw [if_pos ((h.missing i).1 he)]; rfl
  | some img =>
    rw [if_neg (fun hn => by rw [(h.missing i).2 hn] at he; cases he), h.read i img he]; rfl

theorem dumpSegment_ok {da : DataAccess} {disk : Bytes → Outcome SegData}
    {imgs : Nat → Option (List Nat)} {total : Nat} (h : Product da disk imgs total) (cache : Cache)
    (hc : CacheOk da disk cache) (i : Nat) (hv : ∀ img, imgs i = some img → Varied img) :
    ∃ s cache', dumpSegment da disk cache i = .ok (s, cache') ∧ CacheOk da disk cache' ∧
      SegmentAs da imgs i s := by
  obtain ⟨h1, h2⟩ := segment_spec da disk cache i hc
  rw [direct_of h] at h1
  cases he : imgs i with
  | none =>
    rw [he] at h1
    exact ⟨.missing, _, by simp [dumpSegment, h1], h2, he⟩
  | some img =>
    rw [he] at h1
    have hsz := h.size i img he
    have hpos : 0 < da.seglines * da.columns := Nat.mul_pos h.rows h.columns
    have hne : img ≠ [] := by intro hn; rw [hn] at hsz; simp at hsz; omega
    have ht : img.take (da.columns * da.seglines) = img := by
      rw [List.take_of_length_le]; rw [hsz, Nat.mul_comm]; exact Nat.le_refl _
    obtain ⟨hlo, hhi⟩ := extremes_spec img hne (h.samples i img he)
    have hlt : (extremes img).1 < (extremes img).2 := by
      obtain ⟨v, hv1, w, hw1, hvw⟩ := hv img he
      have := hlo.2 v hv1
      have := hhi.2 w hw1
      omega
    have hr : ∃ rows, render da img (extremes img).1 (extremes img).2 = .ok rows ∧
        List.Forall₂ (fun y r => List.Forall₂ (fun x c => ∃ s,
          img[y * da.seglines / 3 * da.columns + x * da.columns / 50]? = some s ∧
          XritDumpSpec.Shows s (extremes img).1 (extremes img).2 c) (List.range 50) r)
          (List.range 3) rows := by
      refine collect_map _ _ _ fun y hy => collect_map _ _ _ fun x hx => ?_
      have hin : y * da.seglines / 3 * da.columns + x * da.columns / 50 < img.length := by
        rw [hsz]
        exact grid_lt (List.mem_range.1 hy) (List.mem_range.1 hx) h.rows h.columns
      have hm := List.getElem_mem hin
      obtain ⟨c, hc1, hc2⟩ := shade_ok _ (extremes img).1 (extremes img).2 (hlo.2 _ hm) (hhi.2 _ hm) hlt
        (h.samples i img he _ hhi.1)
      exact ⟨c, by rw [List.getElem?_eq_getElem hin]; exact hc1, _, List.getElem?_eq_getElem hin, hc2⟩
    obtain ⟨rows, hr1, hr2⟩ := hr
    refine ⟨.shown (extremes img).1 (extremes img).2 rows, (segment da disk cache i).2, ?_, h2,
      img, he, hlo, hhi, (forall₂_range hr2).1, fun y hy => ?_⟩
    · simp only [dumpSegment, h1, Outcome.ok_bind, Option.map_some, ht, hr1]
      rw [if_neg (by rw [hsz, Nat.mul_comm]; omega)]; rfl
    · obtain ⟨r, e1, e2⟩ := (forall₂_range hr2).2 y hy
      refine ⟨r, e1, (forall₂_range e2).1, fun x hx => ?_⟩
      obtain ⟨c, e3, s, e4, e5⟩ := (forall₂_range e2).2 x hx
      exact ⟨s, c, e4, e3, e5⟩

theorem dumpSegment_uniform {da : DataAccess} {disk : Bytes → Outcome SegData}
    {imgs : Nat → Option (List Nat)} {total : Nat} (h : Product da disk imgs total) (cache : Cache)
    (hc : CacheOk da disk cache) (i : Nat) (img : List Nat) (he : imgs i = some img)
    (hu : ¬ Varied img) : dumpSegment da disk cache i = .ub := by
  obtain ⟨h1, h2⟩ := segment_spec da disk cache i hc
  rw [direct_of h, he] at h1
  have hsz := h.size i img he
  have hpos : 0 < da.seglines * da.columns := Nat.mul_pos h.rows h.columns
  have hne : img ≠ [] := by intro hn; rw [hn] at hsz; simp at hsz; omega
  have ht : img.take (da.columns * da.seglines) = img := by
    rw [List.take_of_length_le]; rw [hsz, Nat.mul_comm]; exact Nat.le_refl _
  obtain ⟨hlo, hhi⟩ := extremes_spec img hne (h.samples i img he)
  have heq : (extremes img).1 = (extremes img).2 := by
    have := hlo.2 _ hhi.1
    rcases Nat.lt_or_ge (extremes img).1 (extremes img).2 with hl | hl
    · exact absurd ⟨_, hlo.1, _, hhi.1, hl⟩ hu
    · omega
  have hr : render da img (extremes img).1 (extremes img).2 = .ub := by
    have inner : ∀ y < 3, collect ((List.range 50).map fun x =>
        match img[y * da.seglines / 3 * da.columns + x * da.columns / 50]? with
        | none => .ub
        | some s => shade s (extremes img).1 (extremes img).2) = .ub := by
      intro y hy
      have : ∀ x, (match img[y * da.seglines / 3 * da.columns + x * da.columns / 50]? with
        | none => .ub
        | some s => shade s (extremes img).1 (extremes img).2) = (.ub : Outcome Char) := by
        intro x
        rw [heq]
        split
        · rfl
        · exact shade_uniform _ _
      exact collect_ub _ _ (fun x _ => .inl (this x)) ⟨0, by simp, this 0⟩
    refine collect_ub _ _ (fun y hy => .inl (inner y (List.mem_range.1 hy))) ⟨0, by simp, inner 0 (by omega)⟩
  simp only [dumpSegment, h1, Outcome.ok_bind, Option.map_some, ht, hr]
  rw [if_neg (by rw [hsz, Nat.mul_comm]; omega)]; rfl

/-- Extremes of what was printed so far. -/
structure Bounds (da : DataAccess) (imgs : Nat → Option (List Nat)) (is : List Nat) (acc comp : Nat × Nat) :
    Prop where
  below : comp.1 ≤ acc.1 ∧ ∀ i ∈ is, ∀ img, imgs i = some img → ∀ v ∈ img, comp.1 ≤ v
  above : acc.2 ≤ comp.2 ∧ ∀ i ∈ is, ∀ img, imgs i = some img → ∀ v ∈ img, v ≤ comp.2
  low : comp.1 = acc.1 ∨ ∃ i ∈ is, ∃ img, imgs i = some img ∧ comp.1 ∈ img
  high : comp.2 = acc.2 ∨ ∃ i ∈ is, ∃ img, imgs i = some img ∧ comp.2 ∈ img

theorem dumpSegments_ok {da : DataAccess} {disk : Bytes → Outcome SegData}
    {imgs : Nat → Option (List Nat)} {total : Nat} (h : Product da disk imgs total) (is : List Nat)
    (cache : Cache) (hc : CacheOk da disk cache) (acc : Nat × Nat)
    (hv : ∀ i ∈ is, ∀ img, imgs i = some img → Varied img) :
    ∃ segs comp cache', dumpSegments da disk is cache acc = .ok (segs, comp, cache') ∧
      CacheOk da disk cache' ∧ List.Forall₂ (SegmentAs da imgs) is segs ∧ Bounds da imgs is acc comp := by
  induction is generalizing cache acc with
  | nil => exact ⟨[], acc, cache, rfl, hc, .nil, ⟨by simp, by simp, .inl rfl, .inl rfl⟩⟩
  | cons i is ih =>
    obtain ⟨s, c1, h1, h2, h3⟩ := dumpSegment_ok h cache hc i (hv i (by simp))
    obtain ⟨segs, comp, c2, h4, h5, h6, h7⟩ := ih c1 h2 (widen acc s) (fun j hj => hv j (by simp [hj]))
    refine ⟨s :: segs, comp, c2, by simp [dumpSegments, h1, h4], h5, .cons h3 h6, ?_⟩
    cases s with
    | missing =>
      have e : imgs i = none := h3
      simp only [widen] at h7
      refine ⟨⟨h7.below.1, fun j hj img hi => ?_⟩, ⟨h7.above.1, fun j hj img hi => ?_⟩, ?_, ?_⟩
      · rcases List.mem_cons.1 hj with rfl | hj
        · rw [e] at hi; cases hi
        · exact h7.below.2 j hj img hi
      · rcases List.mem_cons.1 hj with rfl | hj
        · rw [e] at hi; cases hi
        · exact h7.above.2 j hj img hi
      · exact h7.low.imp id fun ⟨j, hj, r⟩ => ⟨j, by simp [hj], r⟩
      · exact h7.high.imp id fun ⟨j, hj, r⟩ => ⟨j, by simp [hj], r⟩
    | shown lo hi rows =>
      obtain ⟨img, e, hlo, hhi, -⟩ := h3
      have b1 := h7.below.1
      have b2 := h7.above.1
      have b3 := h7.low
      have b4 := h7.high
      simp only [widen] at b1 b2 b3 b4
      refine ⟨⟨?_, fun j hj img' hi' => ?_⟩, ⟨?_, fun j hj img' hi' => ?_⟩, ?_, ?_⟩
      · split at b1 <;> omega
      · rcases List.mem_cons.1 hj with rfl | hj
        · rw [e] at hi'; cases hi'
          intro v hv'
          have := hlo.2 v hv'
          split at b1 <;> omega
        · exact h7.below.2 j hj img' hi'
      · split at b2 <;> omega
      · rcases List.mem_cons.1 hj with rfl | hj
        · rw [e] at hi'; cases hi'
          intro v hv'
          have := hhi.2 v hv'
          split at b2 <;> omega
        · exact h7.above.2 j hj img' hi'
      · rcases b3 with b3 | ⟨j, hj, r⟩
        · split at b3
          · right; exact ⟨i, by simp, img, e, by rw [b3]; exact hlo.1⟩
          · left; exact b3
        · right; exact ⟨j, by simp [hj], r⟩
      · rcases b4 with b4 | ⟨j, hj, r⟩
        · split at b4
          · right; exact ⟨i, by simp, img, e, by rw [b4]; exact hhi.1⟩
          · left; exact b4
        · right; exact ⟨j, by simp [hj], r⟩

theorem dumpSegments_uniform {da : DataAccess} {disk : Bytes → Outcome SegData}
    {imgs : Nat → Option (List Nat)} {total : Nat} (h : Product da disk imgs total) (is : List Nat)
    (cache : Cache) (hc : CacheOk da disk cache) (acc : Nat × Nat)
    (hu : ∃ i ∈ is, ∃ img, imgs i = some img ∧ ¬ Varied img) :
    dumpSegments da disk is cache acc = .ub := by
  induction is generalizing cache acc with
  | nil => simp at hu
  | cons i is ih =>
    by_cases hi : ∀ img, imgs i = some img → Varied img
    · obtain ⟨s, c1, h1, h2, h3⟩ := dumpSegment_ok h cache hc i hi
      have : ∃ i ∈ is, ∃ img, imgs i = some img ∧ ¬ Varied img := by
        obtain ⟨j, hj, img, e1, e2⟩ := hu
        rcases List.mem_cons.1 hj with rfl | hj
        · exact absurd (hi img e1) e2
        · exact ⟨j, hj, img, e1, e2⟩
      simp [dumpSegments, h1, ih c1 h2 (widen acc s) this]
    · simp only [not_forall] at hi
      obtain ⟨img, e1, e2⟩ := hi
      simp [dumpSegments, dumpSegment_uniform h cache hc i img e1 e2]

/-- The line read for a row of the picture of the product. -/
theorem line_of {da : DataAccess} {disk : Bytes → Outcome SegData} {imgs : Nat → Option (List Nat)}
    {total : Nat} (h : Product da disk imgs total) (cache : Cache) (hc : CacheOk da disk cache)
    (line : Nat) (hline : line < 2 ^ 32) :
    ∃ row, (lineRead da disk cache line).1 = .ok row ∧ row.length = da.columns ∧
      ∀ col < da.columns, row[col]? = some ((sampleAt da imgs total line col).getD 0) := by
  rw [(lineRead_eq da disk cache line hc).1, if_neg (by have := h.rows; omega), direct_of h,
    Outcome.bind]
  have hh := h.height
  by_cases hl : line < total
  · have e : rowNumber da line = total - 1 - line := by
      unfold rowNumber
      split
      · rename_i hv; rw [if_pos hv] at hh
        have := h.small
        rw [u64sub_of_le (a := da.maxLine) (by omega) (by omega), u64sub_of_le (by omega) (by omega)]
        omega
      · rename_i hv; rw [if_neg hv] at hh
        rw [u64sub_of_le (a := 3712) (by omega) (by omega), h.south, u64sub_of_le (by omega) (by omega)]
        omega
    rw [e]
    cases hi : imgs ((total - 1 - line) / da.seglines) with
    | none =>
      refine ⟨List.replicate da.columns 0, rfl, by simp, fun col hcol => ?_⟩
      rw [sampleAt, if_pos ⟨hl, hcol⟩, hi, List.getElem?_replicate, if_pos hcol]; rfl
    | some img =>
      have hm : (total - 1 - line) % da.seglines < da.seglines := Nat.mod_lt _ h.rows
      have hfit : (total - 1 - line) % da.seglines * da.columns + da.columns ≤ img.length := by
        rw [h.size _ img hi]
        have : ((total - 1 - line) % da.seglines + 1) * da.columns ≤ da.seglines * da.columns :=
          Nat.mul_le_mul_right _ hm
        rw [Nat.add_mul] at this
        omega
      have hs : ∀ col < da.columns, sampleAt da imgs total line col =
          img[(total - 1 - line) % da.seglines * da.columns +
            (if da.swapX then da.columns - 1 - col else col)]? := by
        intro col hcol
        rw [sampleAt, if_pos ⟨hl, hcol⟩, hi]; rfl
      simp only [Option.map_some, rowOf]
      rw [if_pos hfit]
      generalize (total - 1 - line) % da.seglines * da.columns = off at hfit hs
      have hlen : ((img.drop off).take da.columns).length = da.columns := by
        rw [List.length_take, List.length_drop]; omega
      refine ⟨_, rfl, ?_, fun col hcol => ?_⟩
      · split <;> simp only [List.length_reverse, hlen]
      · rw [hs col hcol]
        cases da.swapX with
        | false =>
          have hk : off + col < img.length := by omega
          simp only [Bool.false_eq_true, if_false]
          rw [List.getElem?_take_of_lt hcol, List.getElem?_drop, List.getElem?_eq_getElem hk]; rfl
        | true =>
          have hk : off + (da.columns - 1 - col) < img.length := by omega
          simp only [if_true]
          rw [List.getElem?_reverse (by omega), hlen, List.getElem?_take_of_lt (by omega),
            List.getElem?_drop, List.getElem?_eq_getElem hk]; rfl
  · have hbig : da.segnames.length ≤ rowNumber da line / da.seglines := by
      rw [Nat.le_div_iff_mul_le h.rows]
      have := h.few
      have := h.small
      unfold rowNumber u64sub
      split
      · rename_i hv; rw [if_pos hv] at hh; omega
      · rename_i hv; rw [if_neg hv] at hh; rw [h.south]; omega
    have hnone : imgs (rowNumber da line / da.seglines) = none := by
      rw [h.missing, nameOf, List.getElem?_eq_none hbig]; rfl
    rw [hnone]
    refine ⟨List.replicate da.columns 0, rfl, by simp, fun col hcol => ?_⟩
    rw [sampleAt, if_neg (by omega), List.getElem?_replicate, if_pos hcol]; rfl

theorem sampleAt_mem {da : DataAccess} {imgs : Nat → Option (List Nat)} {total line col s : Nat}
    (h : sampleAt da imgs total line col = some s) : ∃ i img, imgs i = some img ∧ s ∈ img := by
  unfold sampleAt at h
  split at h
  · obtain ⟨img, h1, h2⟩ := Option.bind_eq_some_iff.1 h
    exact ⟨_, img, h1, List.mem_of_getElem? h2⟩
  · cases h

/-- The sample shown at a place of the picture of the product. -/
def pictured (da : DataAccess) (imgs : Nat → Option (List Nat)) (total y x : Nat) : Option Nat :=
  sampleAt da imgs total (y * compSize da / 24) (x * compSize da / 50)

theorem compSize_le (da : DataAccess) : 3712 ≤ compSize da ∧ compSize da ≤ 11136 := by
  unfold compSize; split <;> omega

theorem buffer_of {da : DataAccess} {disk : Bytes → Outcome SegData} {imgs : Nat → Option (List Nat)}
    {total : Nat} (h : Product da disk imgs total) (hw : da.columns ≤ compSize da) (cache : Cache)
    (hc : CacheOk da disk cache) (comp : Nat × Nat) (y : Nat) (hy : y < 24) :
    compositeRow da disk cache comp y =
      (collect ((List.range 50).map fun x =>
        shade ((pictured da imgs total y x).getD 0) comp.1 comp.2)).bind fun cs =>
        .ok (cs, (lineRead da disk cache (y * compSize da / 24)).2) := by
  have hsz := compSize_le da
  have hline : y * compSize da / 24 < 2 ^ 32 := by
    rw [Nat.div_lt_iff_lt_mul (by omega)]
    have : y * compSize da ≤ 24 * 11136 := Nat.mul_le_mul (by omega) hsz.2
    omega
  obtain ⟨row, h1, h2, h3⟩ := line_of h cache hc _ hline
  simp only [compositeRow, h1, Outcome.ok_bind]
  rw [if_neg (by omega)]
  congr 2
  refine List.map_congr_left fun x hx => ?_
  have hx' := List.mem_range.1 hx
  have hpx : x * compSize da / 50 < compSize da := by
    rw [Nat.div_lt_iff_lt_mul (by omega), Nat.mul_comm (compSize da)]
    exact Nat.mul_lt_mul_of_pos_right hx' (by omega)
  have e : (row ++ List.replicate (compSize da - da.columns) 0)[x * compSize da / 50]? =
      some ((pictured da imgs total y x).getD 0) := by
    rw [pictured]
    generalize x * compSize da / 50 = px at hpx
    by_cases hp : px < da.columns
    · rw [List.getElem?_append_left (by omega), h3 px hp]
    · rw [List.getElem?_append_right (by omega), List.getElem?_replicate, if_pos (by omega), sampleAt,
        if_neg (by omega)]; rfl
  rw [e]

theorem compositeRows_ok {da : DataAccess} {disk : Bytes → Outcome SegData}
    {imgs : Nat → Option (List Nat)} {total : Nat} (h : Product da disk imgs total)
    (hw : da.columns ≤ compSize da) (comp : Nat × Nat) (ys : List Nat) (cache : Cache)
    (hc : CacheOk da disk cache) (hys : ∀ y ∈ ys, y < 24) (hlt : comp.1 < comp.2) (h16 : comp.2 < 2 ^ 16)
    (hin : ∀ y ∈ ys, ∀ x < 50, comp.1 ≤ (pictured da imgs total y x).getD 0 ∧
      (pictured da imgs total y x).getD 0 ≤ comp.2) :
    ∃ rows, compositeRows da disk comp ys cache = .ok rows ∧
      List.Forall₂ (fun y r => List.Forall₂ (fun x c =>
        XritDumpSpec.Shows ((pictured da imgs total y x).getD 0) comp.1 comp.2 c) (List.range 50) r)
        ys rows := by
  induction ys generalizing cache with
  | nil => exact ⟨[], rfl, .nil⟩
  | cons y ys ih =>
    obtain ⟨cs, h1, h2⟩ := collect_map (List.range 50)
      (fun x => shade ((pictured da imgs total y x).getD 0) comp.1 comp.2) (fun x c =>
        XritDumpSpec.Shows ((pictured da imgs total y x).getD 0) comp.1 comp.2 c) (fun x hx => by
        obtain ⟨a, b⟩ := hin y (by simp) x (List.mem_range.1 hx)
        exact shade_ok _ _ _ a b hlt h16)
    obtain ⟨rows, h3, h4⟩ := ih _ (lineRead_eq da disk cache (y * compSize da / 24) hc).2
      (fun z hz => hys z (by simp [hz])) (fun z hz => hin z (by simp [hz]))
    refine ⟨cs :: rows, ?_, .cons h2 h4⟩
    rw [compositeRows, buffer_of h hw cache hc comp y (hys y (by simp)), h1]
    simp [Outcome.bind, h3]

theorem compositeRows_ub {da : DataAccess} {disk : Bytes → Outcome SegData}
    {imgs : Nat → Option (List Nat)} {total : Nat} (h : Product da disk imgs total)
    (hw : da.columns ≤ compSize da) (comp : Nat × Nat) (ys : List Nat) (cache : Cache)
    (hc : CacheOk da disk cache) (hys : ∀ y ∈ ys, y < 24) (hlt : comp.1 < comp.2) (h16 : comp.2 < 2 ^ 16)
    (hin : ∀ y ∈ ys, ∀ x < 50, (pictured da imgs total y x).getD 0 ≤ comp.2)
    (hu : ∃ y ∈ ys, ∃ x < 50, (pictured da imgs total y x).getD 0 < comp.1) :
    compositeRows da disk comp ys cache = .ub := by
  induction ys generalizing cache with
  | nil => simp at hu
  | cons y ys ih =>
    have each : ∀ x ∈ List.range 50, shade ((pictured da imgs total y x).getD 0) comp.1 comp.2 = .ub ∨
        ∃ c, shade ((pictured da imgs total y x).getD 0) comp.1 comp.2 = .ok c := by
      intro x hx
      rcases Nat.lt_or_ge ((pictured da imgs total y x).getD 0) comp.1 with hl | hl
      · exact .inl (shade_below _ _ _ hl (by omega) h16)
      · obtain ⟨c, e, _⟩ := shade_ok _ _ _ hl (hin y (by simp) x (List.mem_range.1 hx)) hlt h16
        exact .inr ⟨c, e⟩
    rw [compositeRows, buffer_of h hw cache hc comp y (hys y (by simp))]
    by_cases hy : ∃ x < 50, (pictured da imgs total y x).getD 0 < comp.1
    · obtain ⟨x, hx, hl⟩ := hy
      rw [collect_ub _ _ each ⟨x, List.mem_range.2 hx, shade_below _ _ _ hl (by omega) h16⟩]
      rfl
    · have hu' : ∃ y ∈ ys, ∃ x < 50, (pictured da imgs total y x).getD 0 < comp.1 := by
        obtain ⟨z, hz, r⟩ := hu
        rcases List.mem_cons.1 hz with rfl | hz
        · exact absurd r hy
        · exact ⟨z, hz, r⟩
      have hno : ∀ x ∈ List.range 50, ∃ c, shade ((pictured da imgs total y x).getD 0) comp.1 comp.2 = .ok c ∧
          True := by
        intro x hx
        rcases Nat.lt_or_ge ((pictured da imgs total y x).getD 0) comp.1 with hl | hl
        · exact absurd ⟨x, List.mem_range.1 hx, hl⟩ hy
        · obtain ⟨c, e, _⟩ := shade_ok _ _ _ hl (hin y (by simp) x (List.mem_range.1 hx)) hlt h16
          exact ⟨c, e, trivial⟩
      obtain ⟨cs, h1, -⟩ := collect_map (List.range 50) _ (fun _ _ => True) hno
      rw [h1]
      simp [Outcome.bind, ih _ (lineRead_eq da disk cache (y * compSize da / 24) hc).2
        (fun z hz => hys z (by simp [hz])) (fun z hz => hin z (by simp [hz])) hu']

theorem named_lt {da : DataAccess} {disk : Bytes → Outcome SegData} {imgs : Nat → Option (List Nat)}
    {total : Nat} (h : Product da disk imgs total) {i : Nat} {img : List Nat} (he : imgs i = some img) :
    i < da.segnames.length := by
  rcases Nat.lt_or_ge i da.segnames.length with hl | hl
  · exact hl
  · have : imgs i = none := by rw [h.missing, nameOf, List.getElem?_eq_none hl]; rfl
    rw [this] at he; cases he

/-- All samples of the product. -/
def IsSample (imgs : Nat → Option (List Nat)) (v : Nat) : Prop := ∃ i img, imgs i = some img ∧ v ∈ img

theorem segments_part {da : DataAccess} {disk : Bytes → Outcome SegData}
    {imgs : Nat → Option (List Nat)} {total : Nat} (h : Product da disk imgs total)
    (hv : ∀ i img, imgs i = some img → Varied img) :
    ∃ segs lo hi cache, dumpSegments da disk (List.range da.segnames.length) [] (0xffff, 0) =
        .ok (segs, (lo, hi), cache) ∧ CacheOk da disk cache ∧
      List.Forall₂ (SegmentAs da imgs) (List.range da.segnames.length) segs ∧
      IsSample imgs lo ∧ IsSample imgs hi ∧ (∀ v, IsSample imgs v → lo ≤ v ∧ v ≤ hi) ∧ lo < hi ∧
      hi < 2 ^ 16 := by
  obtain ⟨segs, ⟨lo, hi⟩, cache, h1, h2, h3, h4⟩ := dumpSegments_ok h (List.range da.segnames.length) []
    (cacheOk_nil da disk) (0xffff, 0) (fun i _ img he => hv i img he)
  have hin : ∀ v, IsSample imgs v → lo ≤ v ∧ v ≤ hi := by
    rintro v ⟨i, img, he, hm⟩
    exact ⟨h4.below.2 i (List.mem_range.2 (named_lt h he)) img he v hm,
      h4.above.2 i (List.mem_range.2 (named_lt h he)) img he v hm⟩
  obtain ⟨i, hi'⟩ := h.some_
  obtain ⟨img, he⟩ := Option.ne_none_iff_exists'.1 hi'
  obtain ⟨v, hv1, w, hw1, hvw⟩ := hv i img he
  have a1 := hin v ⟨i, img, he, hv1⟩
  have a2 := hin w ⟨i, img, he, hw1⟩
  have w16 := h.samples i img he w hw1
  have hlo : IsSample imgs lo := by
    rcases h4.low with e | ⟨j, -, img', e1, e2⟩
    · simp only at e; omega
    · exact ⟨j, img', e1, e2⟩
  have hhi : IsSample imgs hi := by
    rcases h4.high with e | ⟨j, -, img', e1, e2⟩
    · simp only at e; omega
    · exact ⟨j, img', e1, e2⟩
  refine ⟨segs, lo, hi, cache, h1, h2, h3, hlo, hhi, hin, by omega, ?_⟩
  obtain ⟨j, img', e1, e2⟩ := hhi
  exact h.samples j img' e1 hi e2

/-- For a product in which no segment is uniform, and that covers all places shown in the picture or
has a sample that is zero, everything printed is that of the samples in the files: every segment is
listed, in order, as missing or with its extremes and its picture, and the picture of the product shows
the samples of its lines, and zero where there is no segment. -/
theorem C97_dump_partial {da : DataAccess} {disk : Bytes → Outcome SegData}
    {imgs : Nat → Option (List Nat)} {total : Nat} (h : Product da disk imgs total) (swapY : Bool)
    (hv : ∀ i img, imgs i = some img → Varied img) (hw : da.columns ≤ if da.hrv then 11136 else 3712)
    (hcover : IsSample imgs 0 ∨ ∀ y < 24, ∀ x < 50,
      (sampleAt da imgs total (y * (if da.hrv then 11136 else 3712) / 24)
        (x * (if da.hrv then 11136 else 3712) / 50)).isSome) :
    ∃ d lo hi, doDump da swapY disk = .ok d ∧
      d.segments.length = da.segnames.length ∧
      (∀ i < da.segnames.length, ∃ s, d.segments[i]? = some s ∧ SegmentAs da imgs i s) ∧
      (IsSample imgs lo ∧ IsSample imgs hi ∧ ∀ v, IsSample imgs v → lo ≤ v ∧ v ≤ hi) ∧
      d.composite.length = 24 ∧
      ∀ y < 24, ∃ r, d.composite[y]? = some r ∧ r.length = 50 ∧ ∀ x < 50, ∃ c, r[x]? = some c ∧
        XritDumpSpec.Shows ((sampleAt da imgs total (y * (if da.hrv then 11136 else 3712) / 24)
          (x * (if da.hrv then 11136 else 3712) / 50)).getD 0) lo hi c := by
  obtain ⟨segs, lo, hi, cache, h1, h2, h3, h4, h5, h6, h7, h8⟩ := segments_part h hv
  have hin : ∀ y ∈ List.range 24, ∀ x < 50, lo ≤ (pictured da imgs total y x).getD 0 ∧
      (pictured da imgs total y x).getD 0 ≤ hi := by
    intro y hy x hx
    cases hp : pictured da imgs total y x with
    | some s => exact h6 s (sampleAt_mem hp)
    | none =>
      rcases hcover with h0 | hc
      · have := h6 0 h0
        simp only [Option.getD_none]; omega
      · have := hc y (List.mem_range.1 hy) x hx
        unfold pictured compSize at hp
        rw [hp] at this; cases this
  obtain ⟨rows, h9, h10⟩ := compositeRows_ok h hw (lo, hi) (List.range 24) cache h2
    (fun y hy => List.mem_range.1 hy) h7 h8 hin
  refine ⟨⟨facts da swapY, segs, rows⟩, lo, hi, by simp [doDump, h1, h9], (forall₂_range h3).1,
    (forall₂_range h3).2, ⟨h4, h5, h6⟩, (forall₂_range h10).1, fun y hy => ?_⟩
  obtain ⟨r, e1, e2⟩ := (forall₂_range h10).2 y hy
  exact ⟨r, e1, (forall₂_range e2).1, (forall₂_range e2).2⟩

/-- The program divides by zero when all samples of a segment are equal, as in a segment of the HRV
channel at night or outside of the disk. -/
theorem C97_violated_uniform {da : DataAccess} {disk : Bytes → Outcome SegData}
    {imgs : Nat → Option (List Nat)} {total : Nat} (h : Product da disk imgs total) (swapY : Bool)
    {i : Nat} {img : List Nat} (hi : imgs i = some img) (hu : ∀ v ∈ img, ∀ w ∈ img, v = w) :
    doDump da swapY disk = .ub := by
  have : ¬ Varied img := by
    rintro ⟨v, hv, w, hw, hl⟩
    have := hu v hv w hw
    omega
  simp [doDump, dumpSegments_uniform h (List.range da.segnames.length) [] (cacheOk_nil da disk) (0xffff, 0)
    ⟨i, List.mem_range.2 (named_lt h hi), img, hi, this⟩]

/-- The program reads outside of its table of characters when a place of the picture of the product is
not covered by a segment and no sample is zero: a missing segment is enough. -/
theorem C97_violated_uncovered {da : DataAccess} {disk : Bytes → Outcome SegData}
    {imgs : Nat → Option (List Nat)} {total : Nat} (h : Product da disk imgs total) (swapY : Bool)
    (hw : da.columns ≤ if da.hrv then 11136 else 3712) (h0 : ¬ IsSample imgs 0)
    (hu : ∃ y < 24, ∃ x < 50, sampleAt da imgs total (y * (if da.hrv then 11136 else 3712) / 24)
        (x * (if da.hrv then 11136 else 3712) / 50) = none) :
    doDump da swapY disk = .ub := by
  by_cases hv : ∀ i img, imgs i = some img → Varied img
  · obtain ⟨segs, lo, hi, cache, h1, h2, h3, h4, h5, h6, h7, h8⟩ := segments_part h hv
    have hlo : 0 < lo := by
      rcases Nat.eq_zero_or_pos lo with e | e
      · rw [e] at h4; exact absurd h4 h0
      · exact e
    have hin : ∀ y ∈ List.range 24, ∀ x < 50, (pictured da imgs total y x).getD 0 ≤ hi := by
      intro y hy x hx
      cases hp : pictured da imgs total y x with
      | some s => exact (h6 s (sampleAt_mem hp)).2
      | none => simp
    obtain ⟨y, hy, x, hx, hn⟩ := hu
    have hp : pictured da imgs total y x = none := hn
    have := compositeRows_ub h hw (lo, hi) (List.range 24) cache h2
      (fun y hy => List.mem_range.1 hy) h7 h8 hin ⟨y, List.mem_range.2 hy, x, hx, by rw [hp]; exact hlo⟩
    simp [doDump, h1, this]
  · simp only [not_forall] at hv
    obtain ⟨i, img, hi, hn⟩ := hv
    simp [doDump, dumpSegments_uniform h (List.range da.segnames.length) [] (cacheOk_nil da disk) (0xffff, 0)
      ⟨i, List.mem_range.2 (named_lt h hi), img, hi, hn⟩]

/-- So it does for every product of the HRV channel, whose segments are half as wide as the picture,
unless a sample is zero. -/
theorem C97_violated_hrv {da : DataAccess} {disk : Bytes → Outcome SegData}
    {imgs : Nat → Option (List Nat)} {total : Nat} (h : Product da disk imgs total) (swapY : Bool)
    (hv : da.hrv = true) (hw : da.columns = 5568) (h0 : ¬ IsSample imgs 0) :
    doDump da swapY disk = .ub := by
  refine C97_violated_uncovered h swapY (by rw [hv, hw]; decide) h0 ⟨0, by omega, 49, by omega, ?_⟩
  rw [sampleAt, if_neg]
  rw [hv, hw]
  simp only [if_true]
  omega

/-- When there is a zero sample, the picture of a product of the HRV channel shows nothing in its
right half, wherever the lines are in the full disk. -/
theorem C97_violated_placement {da : DataAccess} {disk : Bytes → Outcome SegData}
    {imgs : Nat → Option (List Nat)} {total : Nat} (h : Product da disk imgs total) (swapY : Bool)
    (hv : da.hrv = true) (hw : da.columns = 5568) (h0 : IsSample imgs 0) (d : Dump)
    (hd : doDump da swapY disk = .ok d) (y x : Nat) (hy : y < 24) (hx : 25 ≤ x) (hx' : x < 50) :
    ∃ r, d.composite[y]? = some r ∧ r[x]? = some ' ' := by
  by_cases hvar : ∀ i img, imgs i = some img → Varied img
  · obtain ⟨d', lo, hi, h1, -, -, ⟨-, h4, h3⟩, -, h2⟩ := C97_dump_partial h swapY hvar
      (by rw [hv, hw]; decide) (.inl h0)
    rw [hd] at h1
    cases h1
    obtain ⟨r, e1, -, e2⟩ := h2 y hy
    obtain ⟨c, e3, e4⟩ := e2 x hx'
    refine ⟨r, e1, ?_⟩
    rw [sampleAt, if_neg (by rw [hv, hw]; simp only [if_true]; omega)] at e4
    have hlo : lo = 0 := by have := h3 0 h0; omega
    have hpos : 0 < hi := by
      obtain ⟨i, img, hi1, hi2⟩ := h0
      obtain ⟨v, hv1, w, hw1, hl⟩ := hvar i img hi1
      have := h3 w ⟨i, img, hi1, hw1⟩
      omega
    subst hlo
    have := e4.1 (by simpa using hpos)
    simp [palette] at this
    rw [e3, ← this]
  · simp only [not_forall] at hvar
    obtain ⟨i, img, hi, hn⟩ := hvar
    have : doDump da swapY disk = .ub := by
      simp [doDump, dumpSegments_uniform h (List.range da.segnames.length) [] (cacheOk_nil da disk)
        (0xffff, 0) ⟨i, List.mem_range.2 (named_lt h hi), img, hi, hn⟩]
    rw [this] at hd; cases hd

/-- The greatest sample of a segment is shown as the character NUL, in every picture printed. -/
theorem C97_violated_brightest {da : DataAccess} {disk : Bytes → Outcome SegData}
    {imgs : Nat → Option (List Nat)} {total : Nat} (h : Product da disk imgs total) (swapY : Bool)
    (hv : ∀ i img, imgs i = some img → Varied img) (d : Dump) (hd : doDump da swapY disk = .ok d)
    (i : Nat) (img : List Nat) (hi : imgs i = some img) (v : Nat) (hg : Greatest img v) (y x : Nat)
    (hy : y < 3) (hx : x < 50)
    (hat : img[y * da.seglines / 3 * da.columns + x * da.columns / 50]? = some v) :
    ∃ lo hi' rows r, d.segments[i]? = some (.shown lo hi' rows) ∧ rows[y]? = some r ∧
      r[x]? = some (Char.ofNat 0) := by
  obtain ⟨segs, lo, hi', cache, h1, h2, h3, -⟩ := segments_part h hv
  have hs : d.segments = segs := by
    simp only [doDump, h1, Outcome.ok_bind] at hd
    obtain ⟨c, -, hd⟩ := Outcome.of_bind_ok hd
    cases hd
    rfl
  obtain ⟨s, e1, e2⟩ := (forall₂_range h3).2 i (named_lt h hi)
  cases s with
  | missing =>
    have : imgs i = none := e2
    rw [hi] at this; cases this
  | shown lo' hi'' rows =>
    obtain ⟨img', e3, -, e5, -, e6⟩ := e2
    rw [hi] at e3
    cases e3
    obtain ⟨r, e7, -, e8⟩ := e6 y hy
    obtain ⟨s, c, e9, e10, e11⟩ := e8 x hx
    rw [hat] at e9
    cases e9
    have : v = hi'' := Nat.le_antisymm (e5.2 v hg.1) (hg.2 _ e5.1)
    exact ⟨lo', hi'', rows, r, by rw [hs, e1], e7, by rw [e10, e11.2 this]⟩

/-- What is printed before the segments is the description of the product: for HRV the limits of both windows, for the
other channels the line and the column where the image begins. -/
theorem C97_facts (da : DataAccess) (swapY : Bool) (disk : Bytes → Outcome SegData) (d : Dump)
    (h : doDump da swapY disk = .ok d) :
    d.facts.take 8 = [("Columns", toString da.columns), ("Lines", toString da.lines),
      ("Segments", toString da.segnames.length),
      ("Pixels per segment", toString (da.columns * da.seglines)),
      ("Scanlines per segment", toString da.seglines), ("East is", if da.swapX then "left" else "right"),
      ("North is", if swapY then "down" else "up"), ("HRV", if da.hrv then "yes" else "no")] ∧
    (da.hrv = true → d.facts.drop 8 = [("LowerEastColumnActual", toString da.cov.lowerEast),
      ("LowerSouthLineActual", toString da.cov.lowerSouth), ("LowerWestColumnActual", toString da.cov.lowerWest),
      ("LowerNorthLineActual", toString da.cov.lowerNorth), ("UpperEastColumnActual", toString da.cov.upperEast),
      ("UpperSouthLineActual", toString da.cov.upperSouth), ("UpperWestColumnActual", toString da.cov.upperWest),
      ("UpperNorthLineActual", toString da.cov.upperNorth)]) ∧
    (da.hrv = false → d.facts.drop 8 = [("SouthLineActual", toString da.southLine),
      ("WestColumnActual", toString da.westColumn)]) := by
  unfold doDump at h
  obtain ⟨s, -, h⟩ := Outcome.of_bind_ok h
  obtain ⟨c, -, h⟩ := Outcome.of_bind_ok h
  cases h
  refine ⟨rfl, fun hv => ?_, fun hv => ?_⟩
  · show List.drop 8 (XritDump.facts da swapY) = _
    unfold XritDump.facts
    rw [hv]
    rfl
  · show List.drop 8 (XritDump.facts da swapY) = _
    unfold XritDump.facts
    rw [hv]
    rfl

/-- The status of the program: 0 exactly when help is asked for, or when all products named, at least
one, are printed. -/
theorem C97_status (open_ : Bytes → Outcome (DataAccess × Bool)) (disk : Bytes → Outcome SegData) :
    (∀ pre post, (∀ a ∈ pre, ∃ n, a = Arg.file n) →
      XritDump.main open_ disk (pre ++ .help :: post) = .ok ([], 0) ∧
      XritDump.main open_ disk (pre ++ .other :: post) = .ok ([], 1)) ∧
    XritDump.main open_ disk [] = .ok ([], 1) ∧
    (∀ (ns : List Bytes) (ds : List Dump), ns ≠ [] → List.Forall₂ (fun n d => ∃ p, open_ n = .ok p ∧
        doDump p.1 p.2 disk = .ok d) ns ds → XritDump.main open_ disk (ns.map .file) = .ok (ds, 0)) ∧
    ∀ (ns : List Bytes) (ds : List Dump) (n : Bytes) (rest : List Bytes),
      List.Forall₂ (fun n d => ∃ p, open_ n = .ok p ∧ doDump p.1 p.2 disk = .ok d) ns ds →
      ((∃ m, open_ n = .throws m) ∨ ∃ p m, open_ n = .ok p ∧ doDump p.1 p.2 disk = .throws m) →
      XritDump.main open_ disk ((ns ++ n :: rest).map .file) = .ok (ds, 1) := by
  have hopt : ∀ ns : List Bytes, options (ns.map Arg.file) = none := by
    intro ns; induction ns with
    | nil => rfl
    | cons n ns ih => simpa [options] using ih
  have hnames : ∀ ns : List Bytes, names (ns.map Arg.file) = ns := by
    intro ns; induction ns with
    | nil => rfl
    | cons n ns ih => simpa [names] using ih
  refine ⟨fun pre post hpre => ?_, rfl, fun ns ds hne h => ?_, fun ns ds n rest h hf => ?_⟩
  · have : ∀ a, options (pre ++ a :: post) = options (a :: post) := by
      intro a
      induction pre with
      | nil => rfl
      | cons b pre ih =>
        obtain ⟨n, rfl⟩ := hpre b (by simp)
        simpa [options] using ih (fun c hc => hpre c (by simp [hc]))
    simp [XritDump.main, this, options]
  · rw [XritDump.main, hopt, hnames]
    simp only [if_neg hne]
    clear hne
    induction h with
    | nil => rfl
    | cons hd _ ih =>
      obtain ⟨p, e1, e2⟩ := hd
      simp [dumpAll, e1, e2, ih, Outcome.bind]
  · rw [XritDump.main, hopt, hnames]
    simp only
    rw [if_neg (by simp)]
    induction h with
    | nil =>
      rcases hf with ⟨m, e⟩ | ⟨p, m, e1, e2⟩
      · simp [dumpAll, e, Outcome.bind]
      · simp [dumpAll, e1, e2, Outcome.bind]
    | cons hd _ ih =>
      obtain ⟨p, e1, e2⟩ := hd
      simp [dumpAll, e1, e2, ih, Outcome.bind]

/-! ### Cases -/

/-- A product of the HRV channel of three segments of one row, the second of which is missing. -/
def dumpDA : DataAccess :=
  { seglines := 1, columns := 2, lines := 3, hrv := true, swapX := true,
    segnames := [str "a", [], str "c"], cov := ⟨1, 3, 1, 2, 0, 0, 0, 0⟩, maxLine := 3, southLine := 1,
    westColumn := 1 }

def dumpImgs (first : List Nat) (i : Nat) : Option (List Nat) :=
  if i = 0 then some first else if i = 2 then some [5, 6] else none

def dumpDisk (first : List Nat) (f : Bytes) : Outcome SegData :=
  if f = str "a" then .ok ⟨some first⟩ else if f = str "c" then .ok ⟨some [5, 6]⟩ else .throws "no"

theorem dump_product (a b : Nat) (ha : a < 2 ^ 16) (hb : b < 2 ^ 16) :
    Product dumpDA (dumpDisk [a, b]) (dumpImgs [a, b]) 3 where
  missing i := by
    match i with
    | 0 => exact ⟨fun h => absurd h (Option.some_ne_none _), fun h => absurd h (by decide)⟩
    | 1 => exact ⟨fun _ => rfl, fun _ => rfl⟩
    | 2 => exact ⟨fun h => absurd h (Option.some_ne_none _), fun h => absurd h (by decide)⟩
    | i + 3 => simp [dumpImgs, nameOf, dumpDA]
  read i img h := by
    unfold dumpImgs at h
    split at h
    · subst_vars; cases h; rfl
    · split at h
      · subst_vars; cases h; rfl
      · cases h
  size i img h := by
    unfold dumpImgs at h
    split at h
    · cases h; rfl
    · split at h
      · cases h; rfl
      · cases h
  samples i img h := by
    unfold dumpImgs at h
    split at h
    · cases h; simp; omega
    · split at h
      · cases h; simp
      · cases h
  some_ := ⟨0, by simp [dumpImgs]⟩
  height := rfl
  south := rfl
  rows := by decide
  columns := by decide
  small := by decide
  few := by decide

/-- A product that can be printed, with a missing segment. -/
example : Product dumpDA (dumpDisk [0, 7]) (dumpImgs [0, 7]) 3 ∧
    (∀ i img, dumpImgs [0, 7] i = some img → Varied img) ∧ IsSample (dumpImgs [0, 7]) 0 := by
  refine ⟨dump_product 0 7 (by omega) (by omega), fun i img h => ?_, 0, [0, 7], rfl, by simp⟩
  unfold dumpImgs at h
  split at h
  · cases h; exact ⟨0, by simp, 7, by simp, by omega⟩
  · split at h
    · cases h; exact ⟨5, by simp, 6, by simp, by omega⟩
    · cases h

/-- One with a uniform segment. -/
example : doDump dumpDA true (dumpDisk [4, 4]) = .ub :=
  C97_violated_uniform (dump_product 4 4 (by omega) (by omega)) true (i := 0) rfl (by simp)

/-- One without zeros. -/
example : doDump dumpDA true (dumpDisk [4, 9]) = .ub := by
  refine C97_violated_uncovered (dump_product 4 9 (by omega) (by omega)) true (by decide) ?_
    ⟨23, by omega, 0, by omega, by decide⟩
  rintro ⟨i, img, h, h0⟩
  unfold dumpImgs at h
  split at h
  · cases h; simp at h0
  · split at h
    · cases h; simp at h0
    · cases h

/-- A product of the HRV channel of the nominal width, with samples `k`, `k + 1`, ... -/
def wideDA : DataAccess :=
  { seglines := 1, columns := 5568, lines := 1, hrv := true, swapX := true,
    segnames := [str "a"], cov := ⟨1, 1, 1, 5568, 0, 0, 0, 0⟩, maxLine := 1, southLine := 1,
    westColumn := 1 }

theorem wide_product (k : Nat) (hk : k < 10) : Product wideDA
    (fun _ => .ok ⟨some ((List.range 5568).map (· + k))⟩)
    (fun i => if i = 0 then some ((List.range 5568).map (· + k)) else none) 1 where
  missing i := by
    match i with
    | 0 => exact ⟨fun h => absurd h (Option.some_ne_none _), fun h => absurd h (by decide)⟩
    | i + 1 => simp [nameOf, wideDA]
  read i img h := by
    split at h
    · simp only [Option.some.injEq] at h; rw [h]
    · cases h
  size i img h := by
    split at h
    · simp only [Option.some.injEq] at h; rw [← h, List.length_map, List.length_range]; rfl
    · cases h
  samples i img h := by
    split at h
    · simp only [Option.some.injEq] at h
      rw [← h]
      intro v hv
      obtain ⟨w, h1, h2⟩ := List.mem_map.1 hv
      have := List.mem_range.1 h1
      omega
    · cases h
  some_ := ⟨0, by rw [if_pos rfl]; exact Option.some_ne_none _⟩
  height := rfl
  south := rfl
  rows := by decide
  columns := by decide
  small := by decide
  few := by decide

/-- Its only line is in the right half of the full disk, where the picture shows nothing. -/
example : lineStart wideDA 0 = 5568 ∧ IsSample
    (fun i => if i = 0 then some ((List.range 5568).map (· + 0)) else none) 0 :=
  ⟨by decide, 0, _, if_pos rfl, List.mem_map.2 ⟨0, List.mem_range.2 (by omega), rfl⟩⟩

example : doDump wideDA true (fun _ => .ok ⟨some ((List.range 5568).map (· + 1))⟩) = .ub := by
  refine C97_violated_hrv (wide_product 1 (by omega)) true rfl rfl ?_
  rintro ⟨i, img, h, h0⟩
  beta_reduce at h
  split at h
  · simp only [Option.some.injEq] at h
    rw [← h] at h0
    obtain ⟨w, h1, h2⟩ := List.mem_map.1 h0
    omega
  · cases h

end Msat.Props
