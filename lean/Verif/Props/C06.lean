import Mathlib.Tactic.SplitIfs
import Verif.Lemmas.FileAccess

/-
C06 xRIT product names round-trip.
-/
namespace Msat.Props
open Msat Xrit XritSpec StdString

theorem not_segment_suffix {w t : Bytes} (h : ∀ x, t ≠ x ++ str "-C_") :
    substrFrom (w ++ colon :: t) ((w ++ colon :: t).length - 3) ≠ str "-C_" := by
  intro e
  have hl : (w ++ colon :: t).length = w.length + 1 + t.length := by simp; omega
  by_cases h3 : 3 ≤ t.length
  · refine h (t.take (t.length - 3)) ?_
    have e' : substrFrom (w ++ colon :: t) ((w ++ colon :: t).length - 3) = t.drop (t.length - 3) := by
      rw [substrFrom, hl, show w ++ colon :: t = (w ++ [colon]) ++ t by simp,
        show w.length + 1 + t.length - 3 = (w ++ [colon]).length + (t.length - 3) by simp; omega,
        List.drop_append]
      simp
    rw [← e, e', List.take_append_drop]
  · have hm : colon ∈ substrFrom (w ++ colon :: t) ((w ++ colon :: t).length - 3) := by
      rw [substrFrom, hl, List.drop_append_of_le_length (by omega)]
      simp
    rw [e] at hm
    exact absurd hm (by decide)

/-- Composing the short name of a product and parsing it gives back the components. -/
theorem C06_short_name_roundtrip (dir res p1 p2 time : Bytes) (hd : dir ≠ [])
    (hs : slash ∉ res ∧ slash ∉ p1 ∧ slash ∉ p2 ∧ slash ∉ time)
    (hc : colon ∉ res ∧ colon ∉ p1 ∧ colon ∉ p2) (hC : ∀ x, time ≠ x ++ str "-C_") :
    parse (shortName dir res p1 p2 time) = .ok ⟨dir, res, p1, p2, time⟩ := by
  have e : shortName dir res p1 p2 time
      = dir ++ slash :: (res ++ colon :: (p1 ++ colon :: (p2 ++ colon :: time))) := by
    simp [shortName, str, slash, colon]
  generalize hf : shortName dir res p1 p2 time = f at e
  have hsl : slash ∉ res ++ colon :: (p1 ++ colon :: (p2 ++ colon :: time)) := by
    simp only [List.mem_append, List.mem_cons, not_or]
    exact ⟨hs.1, by decide, hs.2.1, by decide, hs.2.2.1, by decide, hs.2.2.2⟩
  have hlen : ¬ f.length < 3 := by rw [e]; simp; omega
  have hsuf : ¬ substrFrom f (f.length - 3) = str "-C_" := by
    have := not_segment_suffix (w := dir ++ slash :: (res ++ colon :: (p1 ++ colon :: p2))) hC
    have e' : f = (dir ++ slash :: (res ++ colon :: (p1 ++ colon :: p2))) ++ colon :: time := by
      rw [e]; simp
    rw [e']; exact this
  have f1 := field_at (s := f) (pre := dir ++ [slash]) (a := res) (c := colon)
    (post := p1 ++ colon :: (p2 ++ colon :: time)) (by rw [e]; simp) rfl hc.1
  have f2 := field_at (s := f) (pre := dir ++ [slash] ++ (res ++ [colon])) (a := p1) (c := colon)
    (post := p2 ++ colon :: time) (by rw [e]; simp) rfl hc.2.1
  have f3 := field_at (s := f) (pre := dir ++ [slash] ++ (res ++ [colon]) ++ (p1 ++ [colon])) (a := p2)
    (c := colon) (post := time) (by rw [e]; simp) rfl hc.2.2
  have f4 : substrFrom f (dir ++ [slash] ++ (res ++ [colon]) ++ (p1 ++ [colon]) ++ (p2 ++ [colon])).length
      = time := by
    have e' : f = (dir ++ [slash] ++ (res ++ [colon]) ++ (p1 ++ [colon]) ++ (p2 ++ [colon])) ++ time := by
      rw [e]; simp
    rw [e', substrFrom, List.drop_left]
  simp only [parse, splitDirectory_at e hsl hd, if_neg hlen, if_neg hsuf, f1, Outcome.ok_bind, f2, f3, f4,
    Outcome.pure_eq]

example : parse (shortName (str "/data/x") (str "H") (str "MSG1") (str "IR_108") (str "200611141200"))
    = .ok ⟨str "/data/x", str "H", str "MSG1", str "IR_108", str "200611141200"⟩ :=
  C06_short_name_roundtrip _ _ _ _ _ (by decide) (by decide) (by decide) (by
    intro x e
    have := congrArg List.getLast? e
    rw [List.getLast?_append, show (str "-C_").getLast? = some 95 from rfl, Option.some_or] at this
    exact absurd this (by decide))

/-- A short name without directory names a product of the current directory. -/
theorem C06_short_name_no_directory (res p1 p2 time : Bytes)
    (hs : slash ∉ res ∧ slash ∉ p1 ∧ slash ∉ p2 ∧ slash ∉ time)
    (hc : colon ∉ res ∧ colon ∉ p1 ∧ colon ∉ p2) (hC : ∀ x, time ≠ x ++ str "-C_") :
    parse (res ++ str ":" ++ p1 ++ str ":" ++ p2 ++ str ":" ++ time)
      = .ok ⟨str ".", res, p1, p2, time⟩ := by
  have e : res ++ str ":" ++ p1 ++ str ":" ++ p2 ++ str ":" ++ time
      = res ++ colon :: (p1 ++ colon :: (p2 ++ colon :: time)) := by
    simp [str, colon]
  generalize hf : res ++ str ":" ++ p1 ++ str ":" ++ p2 ++ str ":" ++ time = f at e
  have hsl : slash ∉ f := by
    rw [e]
    simp only [List.mem_append, List.mem_cons, not_or]
    exact ⟨hs.1, by decide, hs.2.1, by decide, hs.2.2.1, by decide, hs.2.2.2⟩
  have hlen : ¬ f.length < 3 := by rw [e]; simp; omega
  have hsuf : ¬ substrFrom f (f.length - 3) = str "-C_" := by
    have := not_segment_suffix (w := res ++ colon :: (p1 ++ colon :: p2)) hC
    have e' : f = (res ++ colon :: (p1 ++ colon :: p2)) ++ colon :: time := by
      rw [e]; simp
    rw [e']; exact this
  have f1 := field_at (s := f) (pre := []) (a := res) (c := colon)
    (post := p1 ++ colon :: (p2 ++ colon :: time)) (by rw [e]; simp) rfl hc.1
  have f2 := field_at (s := f) (pre := [] ++ (res ++ [colon])) (a := p1) (c := colon)
    (post := p2 ++ colon :: time) (by rw [e]; simp) rfl hc.2.1
  have f3 := field_at (s := f) (pre := [] ++ (res ++ [colon]) ++ (p1 ++ [colon])) (a := p2)
    (c := colon) (post := time) (by rw [e]; simp) rfl hc.2.2
  have f4 : substrFrom f ([] ++ (res ++ [colon]) ++ (p1 ++ [colon]) ++ (p2 ++ [colon])).length
      = time := by
    have e' : f = ([] ++ (res ++ [colon]) ++ (p1 ++ [colon]) ++ (p2 ++ [colon])) ++ time := by
      rw [e]; simp
    rw [e', substrFrom, List.drop_left]
  have f1' : field f colon 0 = .ok (res, ([] ++ (res ++ [colon])).length) := f1
  simp only [parse, splitDirectory_none hsl, if_neg hlen, if_neg hsuf, f1', Outcome.ok_bind, f2, f3, f4,
    Outcome.pure_eq]

/-- The name of a segment file gives back the components it was composed of, whatever the amount of
underscores they were padded with.  A component must not be empty and must not itself end with an
underscore (a single underscore is allowed). -/
theorem C06_segment_name_roundtrip (dir res number sat p1 p2 seg time : Bytes) (k1 k2 k3 : Nat)
    (hd : dir ≠ [])
    (hs : ∀ x ∈ [res, number, sat, p1, p2, seg, time], slash ∉ x ∧ dash ∉ x)
    (hu : ∀ x ∈ [p1, p2, time], x ≠ [] ∧ (x.length = 1 ∨ x.getLast? ≠ some under)) :
    parse (dir ++ str "/" ++ longName res number sat (padded p1 k1) (padded p2 k2) seg
        (padded time k3) (str "C_"))
      = .ok ⟨dir, res, p1, p2, time⟩ := by
  simp only [List.mem_cons, List.not_mem_nil, or_false, forall_eq_or_imp, forall_eq] at hs hu
  obtain ⟨⟨s1, d1⟩, ⟨s2, d2⟩, ⟨s3, d3⟩, ⟨s4, d4⟩, ⟨s5, d5⟩, ⟨s6, d6⟩, ⟨s7, d7⟩⟩ := hs
  obtain ⟨⟨n4, u4⟩, ⟨n5, u5⟩, ⟨n7, u7⟩⟩ := hu
  have hp : ∀ (c : UInt8) x k, c ≠ under → c ∉ x → c ∉ padded x k := by
    intro c x k hc hx hm
    rcases List.mem_append.1 hm with h | h
    · exact hx h
    · exact hc (List.eq_of_mem_replicate h)
  have hsl : slash ≠ under := by decide
  have hda : dash ≠ under := by decide
  have D4 := hp dash p1 k1 hda d4
  have D5 := hp dash p2 k2 hda d5
  have D7 := hp dash time k3 hda d7
  have S4 := hp slash p1 k1 hsl s4
  have S5 := hp slash p2 k2 hsl s5
  have S7 := hp slash time k3 hsl s7
  have U4 := deunderscore_padded p1 k1 n4 u4
  have U5 := deunderscore_padded p2 k2 n5 u5
  have U7 := deunderscore_padded time k3 n7 u7
  generalize padded p1 k1 = q1 at *
  generalize padded p2 k2 = q2 at *
  generalize padded time k3 = q3 at *
  have e : dir ++ str "/" ++ longName res number sat q1 q2 seg q3 (str "C_")
      = dir ++ slash :: (res ++ dash :: (number ++ dash :: (sat ++ dash :: (q1 ++ dash ::
          (q2 ++ dash :: (seg ++ dash :: (q3 ++ dash :: str "C_"))))))) := by
    simp [longName, str, slash, dash]
  generalize hf : dir ++ str "/" ++ longName res number sat q1 q2 seg q3 (str "C_") = f at e
  have hsl : slash ∉ (res ++ dash :: (number ++ dash :: (sat ++ dash :: (q1 ++ dash ::
          (q2 ++ dash :: (seg ++ dash :: (q3 ++ dash :: str "C_"))))))) := by
    simp only [List.mem_append, List.mem_cons, not_or]
    exact ⟨s1, by decide, s2, by decide, s3, by decide, S4, by decide, S5, by decide, s6, by decide,
      S7, by decide, by decide⟩
  have hlen : ¬ f.length < 3 := by rw [e]; simp; omega
  have hsuf : substrFrom f (f.length - 3) = str "-C_" := by
    have e' : f = (dir ++ slash :: (res ++ dash :: (number ++ dash :: (sat ++ dash :: (q1 ++ dash ::
          (q2 ++ dash :: (seg ++ dash :: q3))))))) ++ str "-C_" := by
      rw [e]; simp [str, dash]
    rw [e', substrFrom, List.length_append, show (str "-C_").length = 3 from rfl, Nat.add_sub_cancel,
      List.drop_left]
  have f1 := field_at (s := f) (pre := dir ++ [slash]) (a := res) (c := dash)
    (post := _) (by rw [e]; simp; rfl) rfl d1
  have f2 := field_at (s := f) (pre := dir ++ [slash] ++ (res ++ [dash])) (a := number) (c := dash)
    (post := _) (by rw [e]; simp; rfl) rfl d2
  have f3 := field_at (s := f) (pre := dir ++ [slash] ++ (res ++ [dash]) ++ (number ++ [dash]))
    (a := sat) (c := dash) (post := _) (by rw [e]; simp; rfl) rfl d3
  have f4 := field_at (s := f) (pre := dir ++ [slash] ++ (res ++ [dash]) ++ (number ++ [dash])
    ++ (sat ++ [dash])) (a := q1) (c := dash) (post := _) (by rw [e]; simp; rfl) rfl D4
  have f5 := field_at (s := f) (pre := dir ++ [slash] ++ (res ++ [dash]) ++ (number ++ [dash])
    ++ (sat ++ [dash]) ++ (q1 ++ [dash])) (a := q2) (c := dash) (post := _) (by rw [e]; simp; rfl) rfl D5
  have f6 := field_at (s := f) (pre := dir ++ [slash] ++ (res ++ [dash]) ++ (number ++ [dash])
    ++ (sat ++ [dash]) ++ (q1 ++ [dash]) ++ (q2 ++ [dash])) (a := seg) (c := dash) (post := _)
    (by rw [e]; simp; rfl) rfl d6
  have f7 := field_at (s := f) (pre := dir ++ [slash] ++ (res ++ [dash]) ++ (number ++ [dash])
    ++ (sat ++ [dash]) ++ (q1 ++ [dash]) ++ (q2 ++ [dash]) ++ (seg ++ [dash])) (a := q3) (c := dash)
    (post := _) (by rw [e]; simp; rfl) rfl D7
  simp only [parse, splitDirectory_at e hsl hd, if_neg hlen, hsuf, if_true, f1, Outcome.ok_bind, f2, f3,
    f4, f5, f6, f7, U4, U5, U7, Outcome.pure_eq]

example : parse (str "/data/H-000-MSG1__-MSG1________-HRV______-000018___-200611141200-C_")
    = .ok ⟨str "/data", str "H", str "MSG1", str "HRV", str "200611141200"⟩ :=
  C06_segment_name_roundtrip (str "/data") (str "H") (str "000") (str "MSG1__") (str "MSG1") (str "HRV")
    (str "000018___") (str "200611141200") 8 6 0 (by decide) (by decide) (by decide)

/-- A name that is not a segment name is always handled: parsed or refused with an exception. -/
theorem C06_short_names_handled (f : Bytes) (h : ∀ x, f ≠ x ++ str "-C_") : (parse f).Handled := by
  simp only [parse]
  split
  · trivial
  · rename_i hlen
    have : ¬ substrFrom f (f.length - 3) = str "-C_" := by
      intro e
      refine h (f.take (f.length - 3)) ?_
      rw [← e, substrFrom, List.take_append_drop]
    rw [if_neg this]
    simp only [field]
    cases find f colon (splitDirectory f).2 with
    | none => trivial
    | some a =>
      simp only [Outcome.ok_bind]
      cases find f colon (a + 1) with
      | none => trivial
      | some b =>
        simp only [Outcome.ok_bind]
        cases find f colon (b + 1) with
        | none => trivial
        | some c => trivial

theorem short_name_accepts_only (f : Bytes) (fa : FileAccess) (h : ∀ x, f ≠ x ++ str "-C_")
    (hp : parse f = .ok fa) :
    f.drop (splitDirectory f).2
        = fa.resolution ++ str ":" ++ fa.productid1 ++ str ":" ++ fa.productid2 ++ str ":" ++ fa.timing ∧
      fa.directory = (splitDirectory f).1 ∧
      colon ∉ fa.resolution ∧ colon ∉ fa.productid1 ∧ colon ∉ fa.productid2 := by
  simp only [parse] at hp
  split at hp
  · exact absurd hp (by simp)
  · have : ¬ substrFrom f (f.length - 3) = str "-C_" := by
      intro e
      refine h (f.take (f.length - 3)) ?_
      rw [← e, substrFrom, List.take_append_drop]
    rw [if_neg this] at hp
    have step : ∀ {n : Nat} {r : Bytes × Nat}, field f colon n = .ok r →
        f.drop n = r.1 ++ str ":" ++ f.drop r.2 ∧ colon ∉ r.1 := by
      intro n r hr
      simp only [field] at hr
      cases hc : find f colon n with
      | none => rw [hc] at hr; exact absurd hr (by simp)
      | some i =>
        rw [hc] at hr
        simp only [Outcome.ok.injEq] at hr
        subst hr
        obtain ⟨h1, h2, h3, h4⟩ := find_some hc
        refine ⟨?_, h4⟩
        simp only [substr]
        have e1 : f.drop n = (f.drop n).take (i - n) ++ (f.drop n).drop (i - n) :=
          (List.take_append_drop _ _).symm
        have e2 : (f.drop n).drop (i - n) = colon :: f.drop (i + 1) := by
          rw [List.drop_drop, show n + (i - n) = i by omega]
          rw [List.getElem?_eq_getElem h2, Option.some.injEq] at h3
          rw [← h3, List.getElem_cons_drop]
        rw [e2] at e1
        rw [List.append_assoc]
        exact e1
    cases h1 : field f colon (splitDirectory f).2 with
    | ok a =>
      rw [h1, Outcome.ok_bind] at hp
      cases h2 : field f colon a.2 with
      | ok b =>
        rw [h2, Outcome.ok_bind] at hp
        cases h3 : field f colon b.2 with
        | ok c =>
          rw [h3, Outcome.ok_bind] at hp
          simp only [Outcome.pure_eq, Outcome.ok.injEq] at hp
          subst hp
          refine ⟨?_, rfl, (step h1).2, (step h2).2, (step h3).2⟩
          rw [(step h1).1, (step h2).1, (step h3).1]
          simp [substrFrom]
        | _ => rw [h3] at hp; exact absurd hp (by simp)
      | _ => rw [h2] at hp; exact absurd hp (by simp)
    | _ => rw [h1] at hp; exact absurd hp (by simp)

/-- An accepted short name is the composition of the components obtained from it: `.` stands for no
directory and `/` for the root. -/
theorem C06_short_name_accepts_only (f : Bytes) (fa : FileAccess) (h : ∀ x, f ≠ x ++ str "-C_")
    (hp : parse f = .ok fa) :
    ∃ pre, f = pre ++ (fa.resolution ++ str ":" ++ fa.productid1 ++ str ":" ++ fa.productid2 ++ str ":"
        ++ fa.timing) ∧
      ((pre = [] ∧ fa.directory = str ".") ∨ (pre = str "/" ∧ fa.directory = str "/") ∨
        pre = fa.directory ++ str "/") ∧
      colon ∉ fa.resolution ∧ colon ∉ fa.productid1 ∧ colon ∉ fa.productid2 ∧
      slash ∉ fa.resolution ∧ slash ∉ fa.productid1 ∧ slash ∉ fa.productid2 ∧ slash ∉ fa.timing := by
  obtain ⟨h1, h2, h3⟩ := short_name_accepts_only f fa h hp
  obtain ⟨pre, name, e, hs, hl, hd⟩ := splitDirectory_spec f
  have hn : name = fa.resolution ++ str ":" ++ fa.productid1 ++ str ":" ++ fa.productid2 ++ str ":"
      ++ fa.timing := by
    rw [← h1, hl, e, List.drop_left]
  rw [← h2] at hd
  refine ⟨pre, by rw [← hn]; exact e, hd.imp id (.imp id (fun h => h.1)), h3.1, h3.2.1, h3.2.2, ?_⟩
  rw [hn] at hs
  simp only [List.mem_append, not_or] at hs
  obtain ⟨⟨⟨⟨⟨⟨a, _⟩, b⟩, _⟩, c⟩, _⟩, d⟩ := hs
  exact ⟨a, b, c, d⟩

/-- A segment name with an empty satellite or channel is not refused: the code reads outside of the
string. -/
theorem C06_violated_empty_component :
    parse (str "H-000-MSG1__--HRV______-000018___-200611141200-C_") = .ub := by decide +kernel

theorem findColons_iff (s : Bytes) : ∀ n pos, findColons s n pos = true ↔ n ≤ (s.drop pos).count colon := by
  intro n
  induction n with
  | zero => intro pos; simp [findColons]
  | succ n ih =>
    intro pos
    rw [findColons]
    cases h : StdString.find s colon pos with
    | none =>
      have := StdString.find_eq_none h
      simp only [List.count_eq_zero.2 this]
      simp
    | some p =>
      obtain ⟨h1, h2, h3, h4⟩ := StdString.find_some h
      simp only [ih]
      have e : s.drop pos = (s.drop pos).take (p - pos) ++ colon :: s.drop (p + 1) := by
        have e1 := (List.take_append_drop (p - pos) (s.drop pos)).symm
        rw [List.drop_drop, show pos + (p - pos) = p by omega] at e1
        rw [List.drop_eq_getElem_cons h2] at e1
        rw [List.getElem?_eq_getElem h2] at h3
        rw [Option.some.inj h3] at e1
        exact e1
      rw [e, List.count_append, List.count_eq_zero.2 h4, List.count_cons_self]
      omega

/-- A name is taken for an image name exactly when it has at least three characters and either ends like a
segment file or contains at least three colons. -/
theorem C06_is_valid (s : Bytes) :
    isValid s = true ↔ (∃ stem, s = stem ++ str "-C_") ∨ (3 ≤ s.length ∧ 3 ≤ s.count colon) := by
  unfold isValid
  have e3 : (str "-C_").length = 3 := by decide
  split
  · rename_i h
    constructor
    · intro h'; cases h'
    · rintro (⟨stem, rfl⟩ | h')
      · rw [List.length_append, e3] at h; omega
      · omega
  · rename_i h
    split
    · rename_i h'
      constructor
      · intro _
        left
        refine ⟨s.take (s.length - 3), ?_⟩
        rw [← h']
        exact (List.take_append_drop _ _).symm
      · intro _; rfl
    · rename_i h'
      rw [findColons_iff, List.drop_zero]
      constructor
      · intro hc; exact .inr ⟨by omega, hc⟩
      · rintro (⟨stem, rfl⟩ | hc)
        · exfalso
          apply h'
          rw [StdString.substrFrom, List.length_append, e3, Nat.add_sub_cancel, List.drop_left]
        · exact hc.2

example : isValid (str "H:MSG1:HRV:200611141200") = true := by decide +kernel
example : isValid (str "H:MSG1:HRV") = false := by decide +kernel

/-- `isValid` accepts names that `parse` refuses: colons in the directory are counted. -/
theorem C06_violated_isValid :
    isValid (str "a:b:c:d/x") = true ∧ (parse (str "a:b:c:d/x")).Throws := by decide +kernel

/-- A product name that is not longer than its padding is recovered by `deunderscore` from
`underscoreit`. -/
theorem C06_padding (x : Bytes) (n : Nat) (hx : x ≠ []) (hn : x.length ≤ n)
    (hl : x.length = 1 ∨ x.getLast? ≠ some under) : deunderscore (underscoreit x n) = .ok x := by
  rw [underscoreit, StdString.resize, List.take_of_length_le hn]
  exact deunderscore_padded x _ hx hl

example : deunderscore (underscoreit (str "HRV") 9) = .ok (str "HRV") :=
  C06_padding _ _ (by decide) (by decide) (by decide)

theorem until_blank {a a' r r' : Bytes} (ha : (32 : UInt8) ∉ a) (ha' : (32 : UInt8) ∉ a') (h : a ++ 32 :: r = a' ++ 32 :: r') : a = a' ∧ r = r' := by
  induction a generalizing a' with
  | nil =>
    cases a' with
    | nil => exact ⟨rfl, (List.cons.inj h).2⟩
    | cons x xs => exact absurd (by rw [← (List.cons.inj h).1]; simp) ha'
  | cons x xs ih =>
    cases a' with
    | nil => exact absurd (by rw [(List.cons.inj h).1]; simp) ha
    | cons y ys =>
      obtain ⟨e1, e2⟩ := List.cons.inj h
      obtain ⟨i1, i2⟩ := ih (fun k => ha (List.mem_cons_of_mem _ k)) (fun k => ha' (List.mem_cons_of_mem _ k)) e2
      exact ⟨by rw [e1, i1], i2⟩

/-- What is shown of a product says which one it is: the texts of two products are the same only if all their parts are, when the parts before
the time have no blanks. -/
theorem C06_shown (a b : FileAccess) (ha : (32 : UInt8) ∉ a.directory ∧ (32 : UInt8) ∉ a.resolution ∧ (32 : UInt8) ∉ a.productid1 ∧ (32 : UInt8) ∉ a.productid2)
    (hb : (32 : UInt8) ∉ b.directory ∧ (32 : UInt8) ∉ b.resolution ∧ (32 : UInt8) ∉ b.productid1 ∧ (32 : UInt8) ∉ b.productid2)
    (h : Xrit.toString a = Xrit.toString b) : a = b := by
  obtain ⟨d, r, p, q, t⟩ := a
  obtain ⟨d', r', p', q', t'⟩ := b
  obtain ⟨a1, a2, a3, a4⟩ := ha
  obtain ⟨b1, b2, b3, b4⟩ := hb
  unfold Xrit.toString at h
  simp only [List.append_assoc] at h
  rw [show str " res: " = 32 :: str "res: " by decide +kernel, show str " prod1: " = 32 :: str "prod1: " by decide +kernel,
    show str " prod2: " = 32 :: str "prod2: " by decide +kernel, show str " time: " = 32 :: str "time: " by decide +kernel] at h
  simp only [List.cons_append] at h
  obtain ⟨e1, k1⟩ := until_blank a1 b1 (List.append_cancel_left h)
  obtain ⟨e2, k2⟩ := until_blank a2 b2 (List.append_cancel_left k1)
  obtain ⟨e3, k3⟩ := until_blank a3 b3 (List.append_cancel_left k2)
  obtain ⟨e4, k4⟩ := until_blank a4 b4 (List.append_cancel_left k3)
  have e5 := List.append_cancel_left k4
  simp only at e1 e2 e3 e4
  subst e1 e2 e3 e4 e5
  rfl

example : (32 : UInt8) ∉ (⟨str "/tmp", str "H", str "MSG2", str "IR_108", str "200611141200"⟩ : FileAccess).directory := by decide +kernel

/-- The parts are shown with their names. -/
example : Xrit.toString ⟨str "/tmp", str "H", str "MSG2", str "IR_108", str "200611141200"⟩ = str "dir: /tmp res: H prod1: MSG2 prod2: IR_108 time: 200611141200" := by
  decide +kernel
/-- A product can be searched for when all of its parts are there; otherwise the search is refused. -/
theorem C06_complete (fa : FileAccess) :
    (ensureComplete fa = .ok () ↔ ∀ part ∈ [fa.directory, fa.resolution, fa.productid1, fa.productid2, fa.timing], part ≠ []) ∧
    (¬ ensureComplete fa = .ok () → (ensureComplete fa).Throws) := by
  unfold ensureComplete
  simp only [List.mem_cons, List.not_mem_nil, or_false, forall_eq_or_imp, forall_eq]
  split_ifs <;> simp_all [Outcome.Throws]

example : ensureComplete ⟨str "/data", str "H", str "MSG1", str "IR_108", str "200611141200"⟩ = .ok () :=
  (C06_complete _).1.2 (by decide)

end Msat.Props
