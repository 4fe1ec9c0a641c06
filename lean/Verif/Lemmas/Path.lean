import Verif.Lemmas.Split
import Verif.Lemmas.StdString

namespace Msat.Str
open StrSpec

/-! ### Components -/

theorem components_ne_nil (p : Bytes) : components p ≠ [] := by
  induction p with
  | nil => simp [components]
  | cons c cs ih =>
    rw [components]
    split
    · simp
    · split <;> simp

theorem components_no_slash (p : Bytes) (h : (47 : UInt8) ∉ p) : components p = [p] := by
  induction p with
  | nil => rfl
  | cons c cs ih =>
    rw [components, if_neg (fun e => h (by rw [e]; simp)), ih (fun e => h (List.mem_cons_of_mem _ e))]

theorem components_append (a b : Bytes) : components (a ++ 47 :: b) = components a ++ components b := by
  induction a with
  | nil => simp [components]
  | cons c cs ih =>
    rw [List.cons_append, components, components, ih]
    by_cases hc : c = 47
    · simp [hc]
    · simp only [if_neg hc]
      cases h : components cs with
      | nil => exact absurd h (components_ne_nil cs)
      | cons x xs => rfl

theorem components_mem (p : Bytes) : ∀ c ∈ components p, (47 : UInt8) ∉ c := by
  induction p with
  | nil => intro c hc; simp [components] at hc; subst hc; simp
  | cons d ds ih =>
    intro c hc
    rw [components] at hc
    split at hc
    · rcases List.mem_cons.1 hc with rfl | hc
      · simp
      · exact ih c hc
    · rename_i hd
      cases h : components ds with
      | nil => exact absurd h (components_ne_nil ds)
      | cons x xs =>
        rw [h] at hc ih
        rcases List.mem_cons.1 hc with rfl | hc
        · intro hm
          rcases List.mem_cons.1 hm with e | hm
          · exact hd e.symm
          · exact ih x (by simp) hm
        · exact ih c (List.mem_cons_of_mem _ hc)

theorem components_joined (p : Bytes) : joined [47] (components p) = p := by
  induction p with
  | nil => rfl
  | cons c cs ih =>
    rw [components]
    split
    · rename_i h; subst h
      rw [joined_cons (components_ne_nil cs), ih]; rfl
    · cases h : components cs with
      | nil => exact absurd h (components_ne_nil cs)
      | cons x xs =>
        rw [h] at ih
        dsimp only
        by_cases hx : xs = []
        · subst hx; rw [show joined [47] [x] = x from rfl] at ih; rw [← ih]; rfl
        · rw [joined_cons hx] at ih ⊢; rw [← ih]; rfl

/-- The components are what `Split` gives. -/
theorem parts_components (p : Bytes) : parts [47] p = components p := by
  refine (isSplit_unique [47] (by simp) _ p ⟨components_joined p, ?_⟩).symm
  have hno : ∀ p : Bytes, (47 : UInt8) ∉ p → ∀ i, ¬ OccursAt [47] p i := by
    intro p hp i ho
    obtain ⟨t, ht⟩ := ho.1
    exact hp (List.mem_of_mem_drop (i := i) (by rw [← ht]; simp))
  have hsp : ∀ ps : List Bytes, (∀ p ∈ ps, (47 : UInt8) ∉ p) → ps ≠ [] → Leftmost [47] ps := by
    intro ps
    induction ps with
    | nil => intro _ h; exact absurd rfl h
    | cons x xs ih =>
      intro h _
      by_cases hx : xs = []
      · subst hx; exact hno x (h x (by simp))
      · rw [leftmost_cons hx]
        refine ⟨fun i hi ho => ?_, ih (fun p hp => h p (List.mem_cons_of_mem _ hp)) hx⟩
        exact hno x (h x (by simp)) i ((occursAt_append (by simp; omega)).1 ho)
  exact hsp _ (components_mem p) (components_ne_nil p)

theorem walk_append (cwd : List Bytes) (a b : List Bytes) : walk cwd (a ++ b) = walk (walk cwd a) b := by
  induction a generalizing cwd with
  | nil => rfl
  | cons c cs ih =>
    rw [List.cons_append, walk, walk]
    split
    · exact ih _
    · split
      · exact ih _
      · exact ih _

theorem walk_empty (cwd : List Bytes) (n : Nat) : walk cwd (List.replicate n []) = cwd := by
  induction n with
  | zero => rfl
  | succ n ih => rw [List.replicate_succ, walk, if_pos (Or.inl rfl), ih]

theorem walk_names (cwd : List Bytes) (ns : List Bytes) (h : ∀ n ∈ ns, Proper n) :
    walk cwd ns = ns.reverse ++ cwd := by
  induction ns generalizing cwd with
  | nil => rfl
  | cons n ns ih =>
    obtain ⟨h1, h2, h3⟩ := h n (by simp)
    rw [walk, if_neg (fun e => e.elim h1.1 h2), if_neg h3,
      ih _ (fun m hm => h m (List.mem_cons_of_mem _ hm))]
    simp

/-! ### normpath -/

theorem str_dot : str "." = [46] := by decide
theorem str_dots : str ".." = [46, 46] := by decide
theorem str_slash : str "/" = [47] := by decide

theorem normLoop_relative (toks : List Bytes) (ht : ∀ t ∈ toks, (47 : UInt8) ∉ t) : ∀ names : List Bytes,
    (∀ n ∈ names, Proper n) →
    (staysBelow names.length toks = true → ∃ names', normLoop names toks = .ok names' ∧ (∀ n ∈ names', Proper n) ∧
      ∀ cwd, walk (names ++ cwd) toks = names' ++ cwd) ∧
    (staysBelow names.length toks = false → normLoop names toks = .ub) := by
  induction toks with
  | nil =>
    intro names hn
    exact ⟨fun _ => ⟨names, rfl, hn, fun _ => rfl⟩, fun h => by simp [staysBelow] at h⟩
  | cons t ts ih =>
    intro names hn
    have ht' : ∀ t ∈ ts, (47 : UInt8) ∉ t := fun x hx => ht x (List.mem_cons_of_mem _ hx)
    rw [staysBelow.eq_def, normLoop.eq_def]
    simp only [walk, str_dot, str_dots, str_slash]
    by_cases h1 : t = [] ∨ t = [46]
    · rw [if_pos h1, if_pos (Or.comm.1 h1)]
      simp only [if_pos h1]
      exact ih ht' names hn
    · rw [if_neg h1, if_neg (fun h => h1 (Or.comm.1 h))]
      simp only [if_neg h1]
      by_cases h2 : t = [46, 46]
      · simp only [if_pos h2]
        cases names with
        | nil => exact ⟨fun h => by simp at h, fun _ => rfl⟩
        | cons b names' =>
          obtain ⟨⟨hb0, hb1⟩, hb2, hb3⟩ := hn b (by simp)
          have hbs : b ≠ [47] := by rintro rfl; exact hb1 (by simp)
          simp only [if_neg hb3, if_neg hbs, List.length_cons, List.cons_append, List.tail_cons]
          exact ih ht' names' (fun n hm => hn n (List.mem_cons_of_mem _ hm))
      · simp only [if_neg h2]
        have := ih ht' (t :: names) (fun n hm => by
          rcases List.mem_cons.1 hm with rfl | hm
          · exact ⟨⟨fun e => h1 (Or.inl e), ht _ (by simp)⟩, fun e => h1 (Or.inr e), h2⟩
          · exact hn n hm)
        simpa using this

theorem normLoop_absolute (toks : List Bytes) (ht : ∀ t ∈ toks, (47 : UInt8) ∉ t) : ∀ names : List Bytes,
    (∀ n ∈ names, Proper n) →
    ∃ names', normLoop (names ++ [[47]]) toks = .ok (names' ++ [[47]]) ∧ (∀ n ∈ names', Proper n) ∧
      walk names toks = names' := by
  induction toks with
  | nil => intro names hn; exact ⟨names, rfl, hn, rfl⟩
  | cons t ts ih =>
    intro names hn
    have ht' : ∀ t ∈ ts, (47 : UInt8) ∉ t := fun x hx => ht x (List.mem_cons_of_mem _ hx)
    rw [normLoop.eq_def]
    simp only [walk, str_dot, str_dots, str_slash]
    by_cases h1 : t = [] ∨ t = [46]
    · rw [if_pos h1, if_pos (Or.comm.1 h1)]
      exact ih ht' names hn
    · rw [if_neg h1, if_neg (fun h => h1 (Or.comm.1 h))]
      by_cases h2 : t = [46, 46]
      · simp only [if_pos h2]
        cases names with
        | nil =>
          simp only [List.nil_append]
          rw [if_neg (by decide), if_pos trivial]
          exact ih ht' [] (by simp)
        | cons b names' =>
          obtain ⟨⟨hb0, hb1⟩, hb2, hb3⟩ := hn b (by simp)
          have hbs : b ≠ [47] := by rintro rfl; exact hb1 (by simp)
          simp only [List.cons_append, if_neg hb3, if_neg hbs, List.tail_cons]
          exact ih ht' names' (fun n hm => hn n (List.mem_cons_of_mem _ hm))
      · simp only [if_neg h2]
        have := ih ht' (t :: names) (fun n hm => by
          rcases List.mem_cons.1 hm with rfl | hm
          · exact ⟨⟨fun e => h1 (Or.inl e), ht _ (by simp)⟩, fun e => h1 (Or.inr e), h2⟩
          · exact hn n hm)
        simpa using this

theorem appendpath_names (d n : Bytes) (hd : d ≠ []) (hl : d.getLast? ≠ some 47) (hn : IsName n) :
    appendpath d n = d ++ 47 :: n := by
  unfold appendpath
  have hlen := List.length_pos_iff.2 hd
  rw [if_neg hn.1, if_neg hd]
  rw [if_neg]
  · rw [if_neg]
    · simp [slash]
    · cases n with
      | nil => exact absurd rfl hn.1
      | cons c cs => intro e; rw [List.getD_cons_zero] at e; subst e; exact hn.2 (by simp [slash])
  · intro e
    apply hl
    rw [List.getLast?_eq_getElem?, List.getElem?_eq_getElem (by omega), ← getD_eq (by omega), e]
    rfl

theorem name_last (n : Bytes) (hn : IsName n) : n.getLast? ≠ some 47 := by
  intro e
  exact hn.2 (List.mem_of_getLast? e)

theorem foldl_names (ns : List Bytes) (h : ∀ n ∈ ns, IsName n) : ∀ d : Bytes, d ≠ [] → d.getLast? ≠ some 47 →
    ns.foldl appendpath d = joined [47] (d :: ns) := by
  induction ns with
  | nil => intro d _ _; rfl
  | cons n ns ih =>
    intro d hd hl
    have hn := h n (by simp)
    rw [List.foldl_cons, appendpath_names d n hd hl hn, joined_cons (by simp)]
    rw [ih (fun m hm => h m (List.mem_cons_of_mem _ hm)) _ (by simp)]
    · by_cases hx : ns = []
      · subst hx; simp [joined]
      · rw [joined_cons hx, joined_cons hx]; simp
    · intro e
      have hm := name_last n hn
      rw [List.getLast?_append] at e
      cases n with
      | nil => exact hn.1 rfl
      | cons c cs =>
        rw [List.getLast?_cons_cons] at e
        cases hx : (c :: cs).getLast? with
        | none => exact absurd (List.getLast?_eq_none_iff.1 hx) (by simp)
        | some x => rw [hx] at e hm; exact hm e

end Msat.Str
