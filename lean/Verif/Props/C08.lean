import Verif.Spec.DataAccess

/-
C08 The segment cache is invisible.
-/
namespace Msat.Props
open Msat Xrit XritSpec

/-- What every reachable cache satisfies. -/
structure CacheOk (da : DataAccess) (disk : Bytes → Outcome SegData) (c : Cache) : Prop where
  held : ∀ e ∈ c, direct da disk e.1 = .ok (some e.2)
  two : c.length ≤ 2
  once : (c.map (·.1)).Nodup

theorem cacheOk_nil (da : DataAccess) (disk : Bytes → Outcome SegData) : CacheOk da disk [] :=
  ⟨by simp, by simp, by simp⟩

theorem segment_spec (da : DataAccess) (disk : Bytes → Outcome SegData) (c : Cache) (idx : Nat)
    (hc : CacheOk da disk c) :
    (segment da disk c idx).1 = direct da disk idx ∧ CacheOk da disk (segment da disk c idx).2 := by
  unfold segment
  split
  · rename_i h
    cases c with
    | nil => simp at h
    | cons e c =>
      simp only [List.head?_cons, Option.map_some, Option.some.injEq] at h ⊢
      subst h
      exact ⟨(hc.held e (by simp)).symm, hc⟩
  · rename_i h
    split
    · rename_i e he
      have hm : e ∈ c := List.mem_of_find?_eq_some he
      have hk : e.1 = idx := by
        have := List.find?_some he
        simpa using this
      refine ⟨by rw [← hc.held e hm, hk], ?_, ?_, ?_⟩
      · intro x hx
        rcases List.mem_cons.1 hx with rfl | hx
        · exact hc.held x hm
        · exact hc.held x (List.mem_of_mem_eraseP hx)
      · have := hc.two
        rw [List.length_cons, List.length_eraseP_of_mem hm (by simp [hk])]
        omega
      · rw [List.map_cons, List.nodup_cons]
        constructor
        · intro hx
          obtain ⟨y, hy, e1⟩ := List.mem_map.1 hx
          -- two different entries with the same key
          obtain ⟨a, as, bs, h1, h2, h3, h4⟩ := List.exists_of_eraseP hm (p := fun e => e.1 == idx) (by simp [hk])
          rw [h4] at hy
          have h2' : a.1 = idx := by simpa using h2
          have hn := hc.once
          rw [h3, List.map_append, List.map_cons, List.nodup_append] at hn
          rcases List.mem_append.1 hy with hy | hy
          · exact hn.2.2 y.1 (List.mem_map_of_mem hy) a.1 (by simp) (by rw [e1, hk, h2'])
          · exact (List.nodup_cons.1 hn.2.1).1 (by rw [h2', ← hk, ← e1]; exact List.mem_map_of_mem hy)
        · exact (List.Sublist.map _ (List.eraseP_sublist)).nodup hc.once
    · rename_i hf
      have hnot : ∀ e ∈ c, e.1 ≠ idx := by
        intro e he hk
        have := List.find?_eq_none.1 hf e he
        simp [hk] at this
      cases hn : da.segnames[idx]? with
      | none =>
        simp only [direct, nameOf, hn, Option.getD_none, if_true]
        exact ⟨trivial, hc⟩
      | some name =>
        simp only [direct, nameOf, hn, Option.getD_some]
        by_cases he : name = []
        · simp only [he, if_true]; exact ⟨trivial, hc⟩
        · simp only [he, if_false]
          have hcut : CacheOk da disk (if c.length = 2 then c.dropLast else c) ∧
              (if c.length = 2 then c.dropLast else c).length ≤ 1 ∧
              ∀ e ∈ (if c.length = 2 then c.dropLast else c), e.1 ≠ idx := by
            split
            · rename_i h2
              exact ⟨⟨fun e he => hc.held e ((List.dropLast_sublist c).mem he),
                by rw [List.length_dropLast]; omega,
                (List.Sublist.map _ (List.dropLast_sublist c)).nodup hc.once⟩,
                by rw [List.length_dropLast]; omega, fun e he => hnot e ((List.dropLast_sublist c).mem he)⟩
            · exact ⟨hc, by have := hc.two; omega, hnot⟩
          generalize (if c.length = 2 then c.dropLast else c) = c' at hcut
          obtain ⟨h1, h2, h3⟩ := hcut
          cases hd : disk name with
          | ok d =>
            refine ⟨rfl, ?_, ?_, ?_⟩
            · intro e he'
              rcases List.mem_cons.1 he' with rfl | he'
              · simp [direct, nameOf, hn, he, hd, Outcome.bind]
              · exact h1.held e he'
            · simp; omega
            · rw [List.map_cons, List.nodup_cons]
              refine ⟨fun hx => ?_, h1.once⟩
              obtain ⟨y, hy, e1⟩ := List.mem_map.1 hx
              exact h3 y hy e1
          | throws m => exact ⟨rfl, h1⟩
          | ub => exact ⟨rfl, h1⟩
          | terminate => exact ⟨rfl, h1⟩
          | diverges => exact ⟨rfl, h1⟩

/-- The cache after a history of segment accesses, whether they succeeded or not. -/
def afterSegments (da : DataAccess) (disk : Bytes → Outcome SegData) (history : List Nat) : Cache :=
  history.foldl (fun c idx => (segment da disk c idx).2) []

theorem afterSegments_ok (da : DataAccess) (disk : Bytes → Outcome SegData) (history : List Nat) :
    CacheOk da disk (afterSegments da disk history) := by
  suffices ∀ c, CacheOk da disk c →
      CacheOk da disk (history.foldl (fun c idx => (segment da disk c idx).2) c) from
    this [] (cacheOk_nil da disk)
  induction history with
  | nil => intro c h; exact h
  | cons i hs ih => intro c h; exact ih _ (segment_spec da disk c i h).2

/-- After any history of accesses, accessing a segment gives what reading its file gives, and at most
two segments are held, each once. -/
theorem C08_cache_invisible (da : DataAccess) (disk : Bytes → Outcome SegData) (history : List Nat)
    (idx : Nat) :
    (segment da disk (afterSegments da disk history) idx).1 = direct da disk idx ∧
    (afterSegments da disk history).length ≤ 2 ∧
    ((afterSegments da disk history).map (·.1)).Nodup :=
  ⟨(segment_spec da disk _ idx (afterSegments_ok da disk history)).1,
    (afterSegments_ok da disk history).two, (afterSegments_ok da disk history).once⟩

/-- The segments held are the last used: the one just accessed successfully is held. -/
theorem C08_just_read_is_held (da : DataAccess) (disk : Bytes → Outcome SegData) (history : List Nat)
    (idx : Nat) (d : SegData) (h : direct da disk idx = .ok (some d)) :
    (afterSegments da disk (history ++ [idx])).head? = some (idx, d) := by
  have hs := segment_spec da disk _ idx (afterSegments_ok da disk history)
  rw [h] at hs
  have e : afterSegments da disk (history ++ [idx])
      = (segment da disk (afterSegments da disk history) idx).2 := by
    simp [afterSegments]
  rw [e]
  revert hs
  generalize afterSegments da disk history = c
  unfold segment
  split
  · rename_i h1
    cases c with
    | nil => simp at h1
    | cons e c =>
      simp only [List.head?_cons, Option.map_some, Option.some.injEq] at h1 ⊢
      rintro ⟨h2, _⟩
      simp only [Outcome.ok.injEq, Option.some.injEq] at h2
      rw [← h1, ← h2]
  · split
    · rename_i e he
      have hk : e.1 = idx := by
        have := List.find?_some he
        simpa using this
      rintro ⟨h2, _⟩
      simp only [Outcome.ok.injEq, Option.some.injEq] at h2
      simp [← hk, ← h2]
    · cases hn : da.segnames[idx]? with
      | none => rintro ⟨h2, _⟩; simp at h2
      | some name =>
        simp only
        split
        · rintro ⟨h2, _⟩; simp at h2
        · cases hd : disk name with
          | ok d' =>
            rintro ⟨h2, _⟩
            simp only [Outcome.ok.injEq, Option.some.injEq] at h2
            simp [h2]
          | _ => rintro ⟨h2, _⟩; simp at h2

/-- One line read with a fresh object. -/
def freshLine (da : DataAccess) (disk : Bytes → Outcome SegData) (line : Nat) : Outcome (List Nat) :=
  (lineRead da disk [] line).1

/-- The cache after a history of line reads. -/
def afterLines (da : DataAccess) (disk : Bytes → Outcome SegData) (history : List Nat) : Cache :=
  history.foldl (fun c line => (lineRead da disk c line).2) []

theorem lineRead_eq (da : DataAccess) (disk : Bytes → Outcome SegData) (c : Cache) (line : Nat)
    (hc : CacheOk da disk c) : (lineRead da disk c line).1 =
      (if da.seglines = 0 then .ub else
        (direct da disk (rowNumber da line / da.seglines)).bind
          (rowOf da (rowNumber da line % da.seglines))) ∧ CacheOk da disk (lineRead da disk c line).2 := by
  unfold lineRead
  split
  · exact ⟨rfl, hc⟩
  · have := segment_spec da disk c (rowNumber da line / da.seglines) hc
    revert this
    simp only
    generalize segment da disk c (rowNumber da line / da.seglines) = r
    rintro ⟨h1, h2⟩
    rw [← h1]
    obtain ⟨o, c'⟩ := r
    cases o <;> exact ⟨rfl, h2⟩

theorem freshLine_eq (da : DataAccess) (disk : Bytes → Outcome SegData) (line : Nat) :
    freshLine da disk line = if da.seglines = 0 then .ub else
        (direct da disk (rowNumber da line / da.seglines)).bind
          (rowOf da (rowNumber da line % da.seglines)) :=
  (lineRead_eq da disk [] line (cacheOk_nil da disk)).1

theorem lineRead_spec (da : DataAccess) (disk : Bytes → Outcome SegData) (c : Cache) (line : Nat)
    (hc : CacheOk da disk c) :
    (lineRead da disk c line).1 = freshLine da disk line ∧ CacheOk da disk (lineRead da disk c line).2 :=
  ⟨(lineRead_eq da disk c line hc).1.trans (freshLine_eq da disk line).symm,
    (lineRead_eq da disk c line hc).2⟩

/-- After any history of line reads, reading a line gives the same samples as with a fresh object, and
at most two segments are held. -/
theorem C08_lines_history_independent (da : DataAccess) (disk : Bytes → Outcome SegData)
    (history : List Nat) (line : Nat) :
    (lineRead da disk (afterLines da disk history) line).1 = freshLine da disk line ∧
    (afterLines da disk history).length ≤ 2 := by
  have : CacheOk da disk (afterLines da disk history) := by
    suffices ∀ c, CacheOk da disk c →
        CacheOk da disk (history.foldl (fun c line => (lineRead da disk c line).2) c) from
      this [] (cacheOk_nil da disk)
    induction history with
    | nil => intro c h; exact h
    | cons i hs ih => intro c h; exact ih _ (lineRead_spec da disk c i h).2
  exact ⟨(lineRead_spec da disk _ line this).1, this.two⟩

/-- A product of three one-line segments, the second of which is absent; after some reads the cache
holds the first and the third. -/
def smallDA : DataAccess :=
  { seglines := 1, columns := 2, lines := 3, hrv := true, swapX := false,
    segnames := [str "a", [], str "c"], cov := ⟨1, 3, 1, 2, 0, 0, 0, 0⟩, maxLine := 3, southLine := 1,
    westColumn := 1 }

def smallDisk (f : Bytes) : Outcome SegData :=
  if f = str "a" then .ok ⟨some [1, 2]⟩ else if f = str "c" then .ok ⟨some [5, 6]⟩ else .throws "no"

example : (afterSegments smallDA smallDisk [0, 1, 2, 0]).map (·.1) = [0, 2] ∧
    direct smallDA smallDisk 0 = .ok (some ⟨some [1, 2]⟩) ∧
    (lineRead smallDA smallDisk (afterLines smallDA smallDisk [2, 1, 0, 2]) 0).1 = .ok [5, 6] := by
  decide +kernel

end Msat.Props
