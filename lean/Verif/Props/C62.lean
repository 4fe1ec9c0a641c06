import Verif.Model.IniFile
import Verif.Spec.IniFile
import Verif.Props.C36_C37

namespace Msat.Props
open Ini IniSpec Str

theorem isspace_blank {c : UInt8} (h : c = 32 ∨ c = 9 ∨ c = 11 ∨ c = 12 ∨ c = 13) : isspace c = true := by
  rcases h with rfl | rfl | rfl | rfl | rfl <;> decide

theorem isspace_iff_blank (c : UInt8) (h10 : c ≠ 10) : isspace c = true ↔ IsBlanks [c] := by
  have : ∀ c : UInt8, c ≠ 10 → isspace c = true → (c = 32 ∨ c = 9 ∨ c = 11 ∨ c = 12 ∨ c = 13) :=
    forall_byte (by decide +kernel)
  constructor
  · intro h d hd
    rw [List.mem_singleton] at hd
    subst hd
    exact this d h10 h
  · intro h
    exact isspace_blank (h c (by simp))

theorem dropWhile_blanks {ws rest : Bytes} (h : IsBlanks ws) : (ws ++ rest).dropWhile isspace = rest.dropWhile isspace := by
  induction ws with
  | nil => rfl
  | cons c ws ih =>
    rw [List.cons_append, List.dropWhile_cons, if_pos (isspace_blank (h c (by simp)))]
    exact ih (fun d hd => h d (by simp [hd]))

theorem takeWhile_stop {p : UInt8 → Bool} {a rest : Bytes} {c : UInt8} (h : ∀ x ∈ a, p x = true) (hc : p c = false) :
    (a ++ c :: rest).takeWhile p = a ∧ (a ++ c :: rest).dropWhile p = c :: rest := by
  induction a with
  | nil => simp [hc]
  | cons x a ih =>
    obtain ⟨i1, i2⟩ := ih (fun y hy => h y (by simp [hy]))
    rw [List.cons_append, List.takeWhile_cons, List.dropWhile_cons, if_pos (h x (by simp)), if_pos (h x (by simp)), i1, i2]
    exact ⟨rfl, rfl⟩

theorem takeWhile_all {p : UInt8 → Bool} {a : Bytes} (h : ∀ x ∈ a, p x = true) : a.takeWhile p = a := by
  induction a with
  | nil => rfl
  | cons x a ih => rw [List.takeWhile_cons, if_pos (h x (by simp)), ih (fun y hy => h y (by simp [hy]))]

theorem strcrop_blanks {v w : Bytes} {c : UInt8} {r : Bytes} (hv : v = r ++ [c]) (hc : isspace c = false)
    (hw : ∀ x ∈ w, isspace x = true) : strcrop (v ++ w) = v := by
  unfold strcrop
  rw [List.reverse_append]
  have : ∀ (l : Bytes), (∀ x ∈ l, isspace x = true) → ∀ m : Bytes, (l ++ m).dropWhile isspace = m.dropWhile isspace := by
    intro l
    induction l with
    | nil => intro _ m; rfl
    | cons a l ih =>
      intro h m
      rw [List.cons_append, List.dropWhile_cons, if_pos (h a (by simp))]
      exact ih (fun x hx => h x (by simp [hx])) m
  rw [this _ (by simpa using hw), hv, List.reverse_append]
  simp [hc]

theorem fgetsOne_line : ∀ (m : Nat) (t rest : Bytes), 10 ∉ t → t.length < m →
    fgetsOne m (t ++ 10 :: rest) = (t ++ [10], rest) := by
  intro m
  induction m with
  | zero => intro t rest _ h; omega
  | succ m ih =>
    intro t rest h hl
    cases t with
    | nil => rfl
    | cons c t =>
      have hc : c ≠ 10 := by rintro rfl; exact h (by simp)
      rw [List.cons_append, fgetsOne, if_neg hc, ih t rest (fun h' => h (by simp [h'])) (by simpa using hl)]
      rfl

theorem fgetsAll_line (t rest : Bytes) (h10 : 10 ∉ t) (h0 : 0 ∉ t) (hl : t.length ≤ 1022) :
    fgetsAll 1023 (t ++ 10 :: rest) = (t ++ [10]) :: fgetsAll 1023 rest := by
  cases t with
  | nil => rw [List.nil_append, fgetsAll, if_pos rfl]; rfl
  | cons c t =>
    have hc : c ≠ 10 := by rintro rfl; exact h10 (by simp)
    rw [List.cons_append, fgetsAll, if_neg hc]
    rw [fgetsOne_line (1023 - 1) t rest (fun h' => h10 (by simp [h'])) (by simp at hl ⊢; omega)]
    dsimp only
    rw [takeWhile_all]
    · rfl
    · intro x hx
      have : x ≠ 0 := by
        rintro rfl
        rcases List.mem_cons.1 hx with h | h
        · exact h0 (by simp [h])
        · rcases List.mem_append.1 h with h | h
          · exact h0 (by simp [h])
          · simp at h
      simpa using this

theorem fgetsAll_render (doc : List Item) (h : ∀ i ∈ doc, i.Line) :
    fgetsAll 1023 (render doc) = doc.map fun i => i.text ++ [10] := by
  induction doc with
  | nil => unfold render; rw [List.flatMap_nil, fgetsAll]; rfl
  | cons i doc ih =>
    obtain ⟨h1, h2, h3⟩ := h i (by simp)
    have e : render (i :: doc) = i.text ++ 10 :: render doc := by
      unfold render; rw [List.flatMap_cons, List.append_assoc]; rfl
    rw [e, fgetsAll_line _ _ h1 h2 h3, ih (fun j hj => h j (by simp [hj])), List.map_cons]

/-- The effect of one line, in terms of the document. -/
def lineOf : Item → Line
  | .blank _ => .skip
  | .comment _ _ _ => .skip
  | .sec _ n _ => .sec (n.map fold)
  | .plain _ k _ _ v _ _ => .entry (k.map fold) v
  | .quoted _ k _ _ _ v _ => .entry (k.map fold) v

theorem strlwc_fold {k : Bytes} (h : k.length ≤ 1024) : strlwc k = k.map fold := by
  have hf : (fold : UInt8 → UInt8) = Str.tolower := funext fold_eq_tolower
  unfold strlwc lineSize
  rw [List.take_of_length_le h, hf]

theorem not_space {c : UInt8} (h10 : c ≠ 10) (h : ¬ IsBlanks [c]) : isspace c = false := by
  cases hs : isspace c with
  | false => rfl
  | true => exact absurd ((isspace_iff_blank c h10).1 hs) h

theorem blanks_space {w : Bytes} (h : IsBlanks w) : ∀ x ∈ w, isspace x = true := fun x hx => isspace_blank (h x hx)

theorem blanks_ne {w : Bytes} (h : IsBlanks w) {c : UInt8} (hc : ¬ IsBlanks [c]) : c ∉ w := by
  intro hm
  exact hc (fun d hd => by rw [List.mem_singleton] at hd; subst hd; exact h d hm)

/-- The key part of a line. -/
theorem scanKey_line {k w1 w2 r : Bytes} (hk : k ≠ []) (h61 : 61 ∉ k) (h1 : IsBlanks w1) (h2 : IsBlanks w2)
    (hr : ∃ c t, r = c :: t ∧ isspace c = false) :
    scanKey (k ++ (w1 ++ 61 :: (w2 ++ r))) = some (k ++ w1, r) := by
  obtain ⟨c, t, rfl, hc⟩ := hr
  have e : k ++ (w1 ++ 61 :: (w2 ++ c :: t)) = (k ++ w1) ++ 61 :: (w2 ++ c :: t) := by simp
  have hall : ∀ x ∈ k ++ w1, (decide (x ≠ 61)) = true := by
    intro x hx
    have : x ≠ 61 := by
      rintro rfl
      rcases List.mem_append.1 hx with h | h
      · exact h61 h
      · exact blanks_ne h1 (by intro h; have := h 61 (by simp); revert this; decide) h
    simpa using this
  have := takeWhile_stop (rest := w2 ++ c :: t) (c := 61) hall (by decide)
  unfold scanKey
  rw [e, this.1, this.2]
  dsimp only
  rw [if_neg (by simp [hk])]
  show some (k ++ w1, List.dropWhile isspace (w2 ++ c :: t)) = _
  rw [dropWhile_blanks h2, List.dropWhile_cons, if_neg (by simp [hc])]

/-- Every line of a document has the intended effect. -/
theorem parseLine_item (i : Item) (hok : i.Ok) (hl : i.Line) : parseLine (i.text ++ [10]) = lineOf i := by
  obtain ⟨h10, _, hlen⟩ := hl
  have sp10 : isspace 10 = true := by decide
  cases i with
  | blank ws =>
    have : strskp (ws ++ [10]) = [] := by
      unfold strskp; rw [dropWhile_blanks hok]; simp [sp10]
    show parseLine (ws ++ [10]) = _
    unfold parseLine
    rw [this]
    rfl
  | comment ws m t =>
    obtain ⟨h1, h2⟩ := hok
    have hm : m = 59 ∨ m = 35 := by simpa [marks] using h2
    have hms : isspace m = false := by rcases hm with rfl | rfl <;> decide
    have : strskp (ws ++ m :: t ++ [10]) = m :: (t ++ [10]) := by
      unfold strskp
      rw [List.append_assoc, dropWhile_blanks h1, List.cons_append, List.dropWhile_cons, if_neg (by simp [hms])]
    show parseLine (ws ++ m :: t ++ [10]) = _
    unfold parseLine
    rw [this]
    dsimp only
    rw [if_pos hm]
    rfl
  | sec ws n a =>
    obtain ⟨h1, h2, h3⟩ := hok
    have : strskp (ws ++ 91 :: (n ++ 93 :: a) ++ [10]) = 91 :: (n ++ 93 :: (a ++ [10])) := by
      unfold strskp
      rw [List.append_assoc, dropWhile_blanks h1, List.cons_append, List.dropWhile_cons, if_neg (by decide)]
      simp
    show parseLine (ws ++ 91 :: (n ++ 93 :: a) ++ [10]) = _
    unfold parseLine
    rw [this]
    dsimp only
    rw [if_neg (by decide)]
    have hall : ∀ x ∈ n, (decide (x ≠ 93)) = true := by
      intro x hx
      have : x ≠ 93 := by rintro rfl; exact h3 hx
      simpa using this
    have hs : scanSection (91 :: (n ++ 93 :: (a ++ [10]))) = some n := by
      unfold scanSection
      show (if (n ++ 93 :: (a ++ [10])).takeWhile (fun x => decide (x ≠ 93)) = [] then none
        else some ((n ++ 93 :: (a ++ [10])).takeWhile (fun x => decide (x ≠ 93)))) = _
      rw [(takeWhile_stop (rest := a ++ [10]) (c := 93) hall (by decide)).1, if_neg h2]
    rw [hs]
    have hnl : n.length ≤ 1024 := by
      have : (ws ++ 91 :: (n ++ 93 :: a)).length ≤ 1022 := hlen
      simp at this; omega
    show Line.sec (strlwc n) = _
    rw [strlwc_fold hnl]
    rfl
  | plain ws k w1 w2 v w3 r =>
    obtain ⟨h1, hw1, hw2, hw3, ⟨⟨kc, kr, hkc, hkb⟩, ⟨kl, kr', hkl, hklb⟩⟩, h61, hkh, ⟨⟨vc, vr, hvc, hvb⟩, ⟨vl, vr', hvl, hvlb⟩⟩,
      h59, h35, hvq, hr⟩ := hok
    have h10' : (10 : UInt8) ∉ ws ++ (k ++ (w1 ++ 61 :: (w2 ++ (v ++ (w3 ++ remarkText r))))) := h10
    have hlen' : (ws ++ (k ++ (w1 ++ 61 :: (w2 ++ (v ++ (w3 ++ remarkText r)))))).length ≤ 1022 := hlen
    show parseLine (ws ++ (k ++ (w1 ++ 61 :: (w2 ++ (v ++ (w3 ++ remarkText r))))) ++ [10]) = Line.entry (k.map fold) v
    have hrem : ∃ tail : Bytes, remarkText r = tail ∧
        (tail = [] ∨ ∃ m t, tail = m :: t ∧ (m = 59 ∨ m = 35)) := by
      cases r with
      | none => exact ⟨[], rfl, .inl rfl⟩
      | some p => exact ⟨p.1 :: p.2, rfl, .inr ⟨p.1, p.2, rfl, by simpa [marks] using hr p.1 p.2 rfl⟩⟩
    obtain ⟨tail, htail, htc⟩ := hrem
    rw [htail] at h10' hlen' ⊢
    clear htail
    simp only [List.mem_append, List.mem_cons, not_or] at h10'
    obtain ⟨_, hk10, _, _, _, hv10, _, _⟩ := h10'
    have hkc10 : kc ≠ 10 := by rintro rfl; exact hk10 (by rw [hkc]; simp)
    have hkl10 : kl ≠ 10 := by rintro rfl; exact hk10 (by rw [hkl]; simp)
    have hvc10 : vc ≠ 10 := by rintro rfl; exact hv10 (by rw [hvc]; simp)
    have hvl10 : vl ≠ 10 := by rintro rfl; exact hv10 (by rw [hvl]; simp)
    have hkne : k ≠ [] := by rw [hkc]; simp
    have hs : strskp (ws ++ (k ++ (w1 ++ 61 :: (w2 ++ (v ++ (w3 ++ tail))))) ++ [10])
        = k ++ (w1 ++ 61 :: (w2 ++ (v ++ (w3 ++ (tail ++ [10]))))) := by
      unfold strskp
      rw [List.append_assoc, dropWhile_blanks h1, hkc, List.cons_append, List.cons_append, List.dropWhile_cons,
        if_neg (by rw [not_space hkc10 hkb]; decide)]
      simp
    have hsk : scanKey (k ++ (w1 ++ 61 :: (w2 ++ (v ++ (w3 ++ (tail ++ [10])))))) = some (k ++ w1, v ++ (w3 ++ (tail ++ [10]))) := by
      apply scanKey_line hkne h61 hw1 hw2
      exact ⟨vc, vr ++ (w3 ++ (tail ++ [10])), by rw [hvc]; rfl, not_space hvc10 hvb⟩
    have hkc' : kc ≠ 91 ∧ kc ≠ 59 ∧ kc ≠ 35 := by
      rw [hkc] at hkh
      simpa using hkh
    have hq : ∀ q, q = 34 ∨ q = 39 → scanQuoted q (k ++ (w1 ++ 61 :: (w2 ++ (v ++ (w3 ++ (tail ++ [10])))))) = none := by
      intro q hq
      unfold scanQuoted
      rw [hsk]
      have : vc ≠ q := by
        rw [hvc] at hvq
        simp only [List.head?_cons, List.mem_cons, Option.some.injEq, List.not_mem_nil, or_false, not_or] at hvq
        rcases hq with rfl | rfl
        · exact hvq.1
        · exact hvq.2
      rw [hvc]
      show (if vc = q then _ else none) = none
      rw [if_neg this]
    have hval : ∃ w : Bytes, (∀ x ∈ w, isspace x = true) ∧
        (v ++ (w3 ++ (tail ++ [10]))).takeWhile (fun c => decide (c ≠ 59 ∧ c ≠ 35)) = v ++ w := by
      have hvall : ∀ x ∈ v ++ w3, (decide (x ≠ 59 ∧ x ≠ 35)) = true := by
        intro x hx
        have : x ≠ 59 ∧ x ≠ 35 := by
          rcases List.mem_append.1 hx with h | h
          · exact ⟨by rintro rfl; exact h59 h, by rintro rfl; exact h35 h⟩
          · exact ⟨by rintro rfl; exact blanks_ne hw3 (by intro h; have := h 59 (by simp); revert this; decide) h,
              by rintro rfl; exact blanks_ne hw3 (by intro h; have := h 35 (by simp); revert this; decide) h⟩
        simpa using this
      rcases htc with rfl | ⟨m, t, rfl, hm⟩
      · refine ⟨w3 ++ [10], ?_, ?_⟩
        · intro x hx
          rcases List.mem_append.1 hx with h | h
          · exact blanks_space hw3 x h
          · rw [List.mem_singleton] at h; rw [h]; decide
        · rw [List.nil_append, ← List.append_assoc]
          apply takeWhile_all
          intro x hx
          rcases List.mem_append.1 hx with h | h
          · exact hvall x h
          · rw [List.mem_singleton] at h; rw [h]; decide
      · refine ⟨w3, blanks_space hw3, ?_⟩
        rw [← List.append_assoc, List.cons_append]
        refine (takeWhile_stop hvall ?_).1
        rcases hm with rfl | rfl <;> decide
    obtain ⟨w, hw, hval⟩ := hval
    have hp : scanPlain (k ++ (w1 ++ 61 :: (w2 ++ (v ++ (w3 ++ (tail ++ [10])))))) = some (k ++ w1, v ++ w) := by
      unfold scanPlain
      rw [hsk]
      show (if (v ++ (w3 ++ (tail ++ [10]))).takeWhile (fun c => decide (c ≠ 59 ∧ c ≠ 35)) = [] then none else _) = _
      rw [hval, if_neg (by rw [hvc]; simp)]
    have hnosec : scanSection (k ++ (w1 ++ 61 :: (w2 ++ (v ++ (w3 ++ (tail ++ [10])))))) = none := by
      rw [hkc]
      unfold scanSection
      split
      · rename_i r heq; rw [List.cons_append] at heq; injection heq with e; exact absurd e hkc'.1
      · rfl
    have hklen : k.length ≤ 1024 := by simp at hlen'; omega
    have hfin : cleanEntry (k ++ w1, v ++ w) = Line.entry (k.map fold) v := by
      unfold cleanEntry
      dsimp only
      rw [strcrop_blanks hkl (not_space hkl10 hklb) (blanks_space hw1), strlwc_fold hklen, if_neg,
        strcrop_blanks hvl (not_space hvl10 hvlb) hw]
      rw [hvc] at hvq ⊢
      simp only [List.head?_cons, List.mem_cons, Option.some.injEq, List.not_mem_nil, or_false, not_or] at hvq
      rintro (h | h)
      · injection h with e; exact hvq.1 e
      · injection h with e; exact hvq.2 e
    unfold parseLine
    rw [hs]
    dsimp only
    rw [hnosec, hq 34 (.inl rfl), hq 39 (.inr rfl), hp]
    dsimp only
    rw [hfin]
    rw [hkc]
    show (if kc = 59 ∨ kc = 35 then _ else _) = _
    rw [if_neg (fun h => h.elim hkc'.2.1 hkc'.2.2)]
  | quoted ws k w1 w2 q v a =>
    obtain ⟨h1, hw1, hw2, ⟨⟨kc, kr, hkc, hkb⟩, ⟨kl, kr', hkl, hklb⟩⟩, h61, hkh, hq, hqv, hvne, ⟨vl, vr', hvl, hvlb⟩,
      hv34, hv39⟩ := hok
    have h10' : (10 : UInt8) ∉ ws ++ (k ++ (w1 ++ 61 :: (w2 ++ q :: (v ++ q :: a)))) := h10
    have hlen' : (ws ++ (k ++ (w1 ++ 61 :: (w2 ++ q :: (v ++ q :: a))))).length ≤ 1022 := hlen
    show parseLine (ws ++ (k ++ (w1 ++ 61 :: (w2 ++ q :: (v ++ q :: a)))) ++ [10]) = Line.entry (k.map fold) v
    simp only [List.mem_append, List.mem_cons, not_or] at h10'
    obtain ⟨_, hk10, _, _, _, _, hv10, _, _⟩ := h10'
    have hkc10 : kc ≠ 10 := by rintro rfl; exact hk10 (by rw [hkc]; simp)
    have hkl10 : kl ≠ 10 := by rintro rfl; exact hk10 (by rw [hkl]; simp)
    have hvl10 : vl ≠ 10 := by rintro rfl; exact hv10 (by rw [hvl]; simp)
    have hkne : k ≠ [] := by rw [hkc]; simp
    have hq' : q = 34 ∨ q = 39 := by simpa [quotes] using hq
    have hqs : isspace q = false := by rcases hq' with rfl | rfl <;> decide
    have hs : strskp (ws ++ (k ++ (w1 ++ 61 :: (w2 ++ q :: (v ++ q :: a)))) ++ [10])
        = k ++ (w1 ++ 61 :: (w2 ++ q :: (v ++ q :: (a ++ [10])))) := by
      unfold strskp
      rw [List.append_assoc, dropWhile_blanks h1, hkc, List.cons_append, List.cons_append, List.dropWhile_cons,
        if_neg (by rw [not_space hkc10 hkb]; decide)]
      simp
    have hsk : scanKey (k ++ (w1 ++ 61 :: (w2 ++ q :: (v ++ q :: (a ++ [10])))))
        = some (k ++ w1, q :: (v ++ q :: (a ++ [10]))) :=
      scanKey_line hkne h61 hw1 hw2 ⟨q, _, rfl, hqs⟩
    have hkc' : kc ≠ 91 ∧ kc ≠ 59 ∧ kc ≠ 35 := by
      rw [hkc] at hkh
      simpa using hkh
    have hsq : ∀ q', scanQuoted q' (k ++ (w1 ++ 61 :: (w2 ++ q :: (v ++ q :: (a ++ [10])))))
        = if q = q' then some (k ++ w1, v) else none := by
      intro q'
      unfold scanQuoted
      rw [hsk]
      show (if q = q' then (let v' := (v ++ q :: (a ++ [10])).takeWhile (fun c => decide (c ≠ q'));
        if v' = [] then none else some (k ++ w1, v')) else none) = _
      by_cases e : q = q'
      · subst e
        have hall : ∀ x ∈ v, (decide (x ≠ q)) = true := by
          intro x hx
          have : x ≠ q := by rintro rfl; exact hqv hx
          simpa using this
        rw [if_pos rfl, if_pos rfl]
        dsimp only
        rw [(takeWhile_stop (rest := a ++ [10]) (c := q) hall (by simp)).1, if_neg hvne]
      · rw [if_neg e, if_neg e]
    have hnosec : scanSection (k ++ (w1 ++ 61 :: (w2 ++ q :: (v ++ q :: (a ++ [10]))))) = none := by
      rw [hkc]
      unfold scanSection
      split
      · rename_i r heq; rw [List.cons_append] at heq; injection heq with e; exact absurd e hkc'.1
      · rfl
    have hklen : k.length ≤ 1024 := by simp at hlen'; omega
    have hfin : cleanEntry (k ++ w1, v) = Line.entry (k.map fold) v := by
      unfold cleanEntry
      dsimp only
      have hcr : strcrop v = v := by
        have := strcrop_blanks (w := []) hvl (not_space hvl10 hvlb) (by simp)
        simpa using this
      rw [strcrop_blanks hkl (not_space hkl10 hklb) (blanks_space hw1), strlwc_fold hklen, if_neg, hcr]
      rintro (h | h)
      · exact hv34 h
      · exact hv39 h
    unfold parseLine
    rw [hs]
    dsimp only
    rw [hnosec, hsq, hsq]
    dsimp only
    have hks : ∃ t, k ++ (w1 ++ 61 :: (w2 ++ q :: (v ++ q :: (a ++ [10])))) = kc :: t := ⟨_, by rw [hkc]; rfl⟩
    obtain ⟨t, ht⟩ := hks
    rw [ht]
    dsimp only
    rw [if_neg (fun h => h.elim hkc'.2.1 hkc'.2.2)]
    rcases hq' with rfl | rfl
    · rw [if_pos rfl]; exact hfin
    · rw [if_neg (by decide), if_pos rfl]; exact hfin

theorem readLines_doc (doc : List Item) : ∀ (cur : Bytes) (d : Dict), (∀ i ∈ doc, i.Ok ∧ i.Line) →
    readLines cur d (doc.map fun i => i.text ++ [10]) = runOps d (entries cur doc) := by
  induction doc with
  | nil => intro cur d _; rfl
  | cons i doc ih =>
    intro cur d h
    have ih := fun cur d => ih cur d (fun j hj => h j (by simp [hj]))
    rw [List.map_cons, readLines, parseLine_item i (h i (by simp)).1 (h i (by simp)).2]
    cases i with
    | blank => exact ih cur d
    | comment => exact ih cur d
    | sec ws n a =>
      show (do let d ← Ini.set d (n.map fold) none; readLines (n.map fold) d _) = runOps d (.set (n.map fold) none :: _)
      rw [runOps]
      cases Ini.set d (n.map fold) none with
      | ok d' => rw [Outcome.ok_bind, Outcome.ok_bind]; exact ih _ d'
      | _ => rfl
    | plain ws k w1 w2 v w3 r =>
      show (do let d ← Ini.set d (cur ++ [58] ++ k.map fold) (some v); readLines cur d _)
        = runOps d (.set (cur ++ [58] ++ k.map fold) (some v) :: _)
      rw [runOps]
      cases Ini.set d (cur ++ [58] ++ k.map fold) (some v) with
      | ok d' => rw [Outcome.ok_bind, Outcome.ok_bind]; exact ih _ d'
      | _ => rfl
    | quoted ws k w1 w2 q v a =>
      show (do let d ← Ini.set d (cur ++ [58] ++ k.map fold) (some v); readLines cur d _)
        = runOps d (.set (cur ++ [58] ++ k.map fold) (some v) :: _)
      rw [runOps]
      cases Ini.set d (cur ++ [58] ++ k.map fold) (some v) with
      | ok d' => rw [Outcome.ok_bind, Outcome.ok_bind]; exact ih _ d'
      | _ => rfl

theorem entries_set (doc : List Item) : ∀ cur : Bytes, ∀ op ∈ entries cur doc, ∃ k v, op = .set k v := by
  induction doc with
  | nil => intro cur op h; cases h
  | cons i is ih =>
    intro cur op h
    cases i with
    | blank ws => exact ih _ op h
    | comment ws m x => exact ih _ op h
    | sec ws n a =>
      rcases List.mem_cons.1 h with rfl | h
      · exact ⟨_, _, rfl⟩
      · exact ih _ op h
    | plain ws k w1 w2 v w3 r =>
      rcases List.mem_cons.1 h with rfl | h
      · exact ⟨_, _, rfl⟩
      · exact ih _ op h
    | quoted ws k w1 w2 q v a =>
      rcases List.mem_cons.1 h with rfl | h
      · exact ⟨_, _, rfl⟩
      · exact ih _ op h

/-- Reading the file of a document makes the dictionary of its entries: sections, keys in their sections, the
last value of a key that comes more than once; every lookup finds what the document says, whatever the case
of the key. -/
theorem C62_read_partial (doc : List Item) (h : ∀ i ∈ doc, i.Ok ∧ i.Line) :
    ∃ d, iniNew (some (render doc)) = .ok (some d) ∧ runOps (newDict 0) (entries [] doc) = .ok d ∧
      ∀ key : Bytes, key.length ≤ 1024 →
        (Ini.hash (key.map fold) ≠ 0 ∨ value (entries [] doc) (key.map fold) ≠ none) →
        getstring d key = .ok (match value (entries [] doc) (key.map fold) with
          | none => .default
          | some v => .value v) := by
  obtain ⟨d, e, hi⟩ := runOps_inv (entries [] doc) (inv_new 0)
  refine ⟨d, ?_, e, ?_⟩
  · unfold iniNew lineSize
    dsimp only
    rw [fgetsAll_render doc (fun i hi => (h i hi).2), readLines_doc doc [] _ h, e]
    rfl
  · intro key hl hz
    unfold getstring
    rw [strlwc_fold hl]
    rcases hz with hz | hp
    · exact get_inv (by simpa using hi) _ hz
    · cases hv : value (entries [] doc) (key.map fold) with
      | none => exact absurd hv hp
      | some v =>
        exact get_present (by simpa using hi) (runOps_packed _ (entries_set doc []) (packed_replicate _) e) _ v hv

/-- A file that cannot be opened gives no dictionary. -/
theorem C62_no_file : iniNew none = .ok none := rfl

/-- `k = ""` does not give an empty value, as the comment in the code says, but a value of two quotes: the
comparison that should recognise it is made before the newline has been removed.  It works only at the end of
a file without newline. -/
theorem C62_violated_empty_value :
    parseLine "k = \"\"\n".toUTF8.toList = .entry [107] [34, 34] ∧
    parseLine "k = ''\n".toUTF8.toList = .entry [107] [39, 39] ∧
    parseLine "k = \"\"".toUTF8.toList = .entry [107] [] := by
  have e1 : "k = \"\"\n".toUTF8.toList = [107, 32, 61, 32, 34, 34, 10] := by decide +kernel
  have e2 : "k = ''\n".toUTF8.toList = [107, 32, 61, 32, 39, 39, 10] := by decide +kernel
  have e3 : "k = \"\"".toUTF8.toList = [107, 32, 61, 32, 34, 34] := by decide +kernel
  rw [e1, e2, e3]
  decide +kernel

/-- A key without a value is not entered at all. -/
theorem C62_violated_no_value : parseLine "k =\n".toUTF8.toList = .skip := by
  have e1 : "k =\n".toUTF8.toList = [107, 32, 61, 10] := by decide +kernel
  rw [e1]
  decide +kernel

/-- `[Sec]`, then `Key = 'a b' ...` and `n=12 ; twelve`. -/
example :
    let doc := [Item.sec [] [83, 101, 99] [], .quoted [32] [75, 101, 121] [32] [32] 39 [97, 32, 98] [46],
      .plain [] [110] [] [] [49, 50] [32] (some (59, [32, 49])), .comment [] 35 [120], .blank [9]]
    (∀ i ∈ doc, i.Ok ∧ i.Line) ∧
    entries [] doc = [.set [115, 101, 99] none, .set [115, 101, 99, 58, 107, 101, 121] (some [97, 32, 98]),
      .set [115, 101, 99, 58, 110] (some [49, 50])] := by
  have nb : ∀ c : UInt8, isspace c = false → ¬ IsBlanks [c] := by
    intro c hc h
    have := isspace_blank (h c (by simp))
    rw [hc] at this
    cases this
  refine ⟨?_, rfl⟩
  intro i hi
  simp only [List.mem_cons, List.not_mem_nil, or_false] at hi
  rcases hi with rfl | rfl | rfl | rfl | rfl
  · exact ⟨⟨by unfold IsBlanks; decide, by decide, by decide⟩, by decide, by decide, by decide⟩
  · refine ⟨⟨by unfold IsBlanks; decide, by unfold IsBlanks; decide, by unfold IsBlanks; decide,
      ⟨⟨75, [101, 121], rfl, nb _ (by decide)⟩, 121, [75, 101], rfl, nb _ (by decide)⟩, by decide, by decide, by decide, by decide,
      by decide, ⟨98, [97, 32], rfl, nb _ (by decide)⟩, by decide, by decide⟩, by decide, by decide, by decide⟩
  · refine ⟨⟨by unfold IsBlanks; decide, by unfold IsBlanks; decide, by unfold IsBlanks; decide, by unfold IsBlanks; decide,
      ⟨⟨110, [], rfl, nb _ (by decide)⟩, 110, [], rfl, nb _ (by decide)⟩, by decide, by decide,
      ⟨⟨49, [50], rfl, nb _ (by decide)⟩, 50, [49], rfl, nb _ (by decide)⟩, by decide, by decide, by decide, ?_⟩,
      by decide, by decide, by decide⟩
    intro m t h
    injection h with h
    injection h with h1 h2
    rw [← h1]; decide
  · exact ⟨⟨by unfold IsBlanks; decide, by decide⟩, by decide, by decide, by decide⟩
  · exact ⟨by unfold Item.Ok IsBlanks; decide, by decide, by decide, by decide⟩

end Msat.Props
