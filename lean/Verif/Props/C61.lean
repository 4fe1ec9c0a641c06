import Verif.Props.C30_C31

namespace Msat.Props
open Native NativeSpec

theorem cstr_field (pre post : Bytes) (w : Nat) (t : Bytes) (h : Fits w t) :
    cstr (pre ++ field w t ++ post) pre.length = .ok t := by
  obtain ⟨h1, h2⟩ := h
  obtain ⟨k, hk⟩ : ∃ k, w - t.length = k + 1 := ⟨w - t.length - 1, by omega⟩
  have e : (pre ++ field w t ++ post).drop pre.length = t ++ (0 : UInt8) :: (List.replicate k 0 ++ post) := by
    unfold field
    rw [List.append_assoc, List.drop_left' rfl, hk, List.replicate_succ]
    simp
  unfold cstr
  rw [e, if_pos (by simp)]
  congr 1
  clear e hk h1
  induction t with
  | nil => simp
  | cons a t ih =>
    have ha : a ≠ 0 := by intro e; exact h2 (by simp [e])
    rw [List.cons_append, List.takeWhile_cons, if_pos (by simpa using ha), ih (fun h => h2 (by simp [h]))]

theorem field_length (w : Nat) (t : Bytes) (h : t.length < w) : (field w t).length = w := by
  unfold field; rw [List.length_append, List.length_replicate]; omega

theorem mphEntries_append (buf : Bytes) (xs ys : List (List Nat)) (a b : List Bytes)
    (hx : mphEntries buf xs = .ok a) (hy : mphEntries buf ys = .ok b) :
    mphEntries buf (xs ++ ys) = .ok (a ++ b) := by
  induction xs generalizing a with
  | nil =>
    simp only [mphEntries, Outcome.ok.injEq] at hx
    rw [← hx]; simpa using hy
  | cons o xs ih =>
    rw [mphEntries] at hx
    obtain ⟨s, hs, hx⟩ := Outcome.of_bind_ok hx
    obtain ⟨t, ht, hx⟩ := Outcome.of_bind_ok hx
    simp only [Outcome.pure_eq, Outcome.ok.injEq] at hx
    rw [List.cons_append, mphEntries, hs, Outcome.ok_bind, ih t ht, Outcome.ok_bind, ← hx]
    rfl

theorem range_map_succ {β : Type} (n : Nat) (f : Nat → β) :
    (List.range (n + 1)).map f = f 0 :: (List.range n).map (fun i => f (i + 1)) := by
  rw [List.range_succ_eq_map, List.map_cons, List.map_map]
  rfl

theorem singles (w : Nat) (ts : List Bytes) : ∀ (pre post : Bytes), (∀ t ∈ ts, Fits w t) →
    mphEntries (pre ++ ts.flatMap (field w) ++ post) ((List.range ts.length).map fun i => [pre.length + w * i])
      = .ok ts := by
  induction ts with
  | nil => intro pre post _; rfl
  | cons t ts ih =>
    intro pre post ht
    have hfit := ht t (by simp)
    have hl := field_length w t hfit.1
    have ih' := ih (pre ++ field w t) post (fun x hx => ht x (by simp [hx]))
    have e : pre ++ (t :: ts).flatMap (field w) ++ post = pre ++ field w t ++ ts.flatMap (field w) ++ post := by
      rw [List.flatMap_cons]; simp only [List.append_assoc]
    have e2 : pre ++ field w t ++ ts.flatMap (field w) ++ post
        = pre ++ field w t ++ (ts.flatMap (field w) ++ post) := by simp only [List.append_assoc]
    rw [e, List.length_cons, range_map_succ, mphEntries, mphEntry, mphEntry, Nat.mul_zero, Nat.add_zero]
    rw [show (fun i => [pre.length + w * (i + 1)]) = fun i => [(pre ++ field w t).length + w * i] by
      funext i
      rw [List.length_append, hl, Nat.mul_add]
      congr 1
      omega, ih', e2, cstr_field _ _ _ _ hfit]
    simp

theorem pairs (v w : Nat) (ts : List (Bytes × Bytes)) : ∀ (pre post : Bytes),
    (∀ t ∈ ts, Fits v t.1 ∧ Fits w t.2) →
    mphEntries (pre ++ ts.flatMap (fun x => field v x.1 ++ field w x.2) ++ post)
      ((List.range ts.length).map fun i => [pre.length + (v + w) * i, pre.length + v + (v + w) * i])
      = .ok (ts.map fun t => t.1 ++ t.2) := by
  induction ts with
  | nil => intro pre post _; rfl
  | cons t ts ih =>
    intro pre post ht
    obtain ⟨h1, h2⟩ := ht t (by simp)
    have hl1 := field_length v t.1 h1.1
    have hl2 := field_length w t.2 h2.1
    have ih' := ih (pre ++ field v t.1 ++ field w t.2) post (fun x hx => ht x (by simp [hx]))
    have e : pre ++ (t :: ts).flatMap (fun x => field v x.1 ++ field w x.2) ++ post
        = pre ++ field v t.1 ++ field w t.2 ++ ts.flatMap (fun x => field v x.1 ++ field w x.2) ++ post := by
      rw [List.flatMap_cons]; simp only [List.append_assoc]
    have c1 : cstr (pre ++ field v t.1 ++ field w t.2 ++ ts.flatMap (fun x => field v x.1 ++ field w x.2) ++ post)
        pre.length = .ok t.1 := by
      have := cstr_field pre (field w t.2 ++ ts.flatMap (fun x => field v x.1 ++ field w x.2) ++ post) _ _ h1
      simpa only [List.append_assoc] using this
    have c2 : cstr (pre ++ field v t.1 ++ field w t.2 ++ ts.flatMap (fun x => field v x.1 ++ field w x.2) ++ post)
        (pre.length + v) = .ok t.2 := by
      have := cstr_field (pre ++ field v t.1) (ts.flatMap (fun x => field v x.1 ++ field w x.2) ++ post) _ _ h2
      rw [List.length_append, hl1] at this
      simpa only [List.append_assoc] using this
    rw [e, List.length_cons, range_map_succ, mphEntries, mphEntry, mphEntry, mphEntry, Nat.mul_zero, Nat.add_zero,
      Nat.add_zero, c1, c2]
    rw [show (fun i => [pre.length + (v + w) * (i + 1), pre.length + v + (v + w) * (i + 1)])
        = fun i => [(pre ++ field v t.1 ++ field w t.2).length + (v + w) * i,
          (pre ++ field v t.1 ++ field w t.2).length + v + (v + w) * i] by
      funext i
      rw [List.length_append, List.length_append, hl1, hl2, Nat.mul_add]
      congr 1
      · omega
      · congr 1; omega, ih']
    simp

theorem singles_length (w : Nat) (ts : List Bytes) (h : ∀ t ∈ ts, Fits w t) :
    (ts.flatMap (field w)).length = w * ts.length := by
  induction ts with
  | nil => rfl
  | cons t ts ih =>
    rw [List.flatMap_cons, List.length_append, field_length _ _ (h t (by simp)).1, ih (fun x hx => h x (by simp [hx])),
      List.length_cons, Nat.mul_add]
    omega

theorem pairs_length (v w : Nat) (ts : List (Bytes × Bytes)) (h : ∀ t ∈ ts, Fits v t.1 ∧ Fits w t.2) :
    (ts.flatMap (fun x => field v x.1 ++ field w x.2)).length = (v + w) * ts.length := by
  induction ts with
  | nil => rfl
  | cons t ts ih =>
    rw [List.flatMap_cons, List.length_append, List.length_append, field_length _ _ (h t (by simp)).1.1,
      field_length _ _ (h t (by simp)).2.1, ih (fun x hx => h x (by simp [hx])), List.length_cons, Nat.mul_add]
    omega

/-- All the texts of the header are recovered, the two halves of the product entries one after the other. -/
theorem C61_text_entries (a : List Bytes) (b : List (Bytes × Bytes)) (gap : Bytes) (c : List Bytes)
    (ha : a.length = 6) (hb : b.length = 5) (hg : gap.length = 1364) (hc : c.length = 37)
    (fa : ∀ t ∈ a, Fits 80 t) (fb : ∀ t ∈ b, Fits 46 t.1 ∧ Fits 16 t.2) (fc : ∀ t ∈ c, Fits 80 t) :
    (textHeader a b gap c).length = 5114 ∧
    readMph (textHeader a b gap c) = .ok (a ++ (b.map fun t => t.1 ++ t.2) ++ c) := by
  have la := singles_length 80 a fa
  have lb := pairs_length 46 16 b fb
  have lc := singles_length 80 c fc
  constructor
  · unfold textHeader
    rw [List.length_append, List.length_append, List.length_append, la, lb, lc, ha, hb, hc, hg]
  · unfold readMph
    have hoff : mphOffsets = ((List.range 6).map fun i => [0 + 80 * i])
        ++ ((List.range 5).map fun i => [480 + (46 + 16) * i, 480 + 46 + (46 + 16) * i])
        ++ ((List.range 37).map fun i => [2154 + 80 * i]) := by decide +kernel
    rw [hoff]
    refine mphEntries_append _ _ _ _ _ (mphEntries_append _ _ _ _ _ ?_ ?_) ?_
    · have := singles 80 a [] (b.flatMap (fun x => field 46 x.1 ++ field 16 x.2) ++ gap ++ c.flatMap (field 80)) fa
      rw [ha] at this
      unfold textHeader
      simpa only [List.append_assoc, List.nil_append, List.length_nil] using this
    · have := pairs 46 16 b (a.flatMap (field 80)) (gap ++ c.flatMap (field 80)) fb
      rw [la, ha, hb] at this
      unfold textHeader
      simpa only [List.append_assoc] using this
    · have := singles 80 c (a.flatMap (field 80) ++ b.flatMap (fun x => field 46 x.1 ++ field 16 x.2) ++ gap) [] fc
      rw [List.length_append, List.length_append, la, lb, hg, ha, hb, hc] at this
      unfold textHeader
      simpa only [List.append_assoc, List.append_nil] using this

example : ∀ t ∈ List.replicate 6 (str "FormatName: NATIVE"), Fits 80 t := by
  intro t ht
  rw [List.eq_of_mem_replicate ht]
  exact ⟨by decide +kernel, by decide +kernel⟩

end Msat.Props
