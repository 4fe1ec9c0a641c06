import Verif.Spec.Subprocess

namespace Msat.Props
open Subprocess SubprocessSpec

theorem strncmpEq_prefix : ∀ (key e : Bytes), 0 ∉ key → (strncmpEq key.length e key = true ↔ key <+: e) := by
  intro key
  induction key with
  | nil => intro e _; simp [strncmpEq]
  | cons k ks ih =>
    intro e h
    have hk : k ≠ 0 := fun h' => h (by rw [h']; exact List.mem_cons_self)
    have hks : 0 ∉ ks := fun h' => h (List.mem_cons_of_mem _ h')
    show strncmpEq (ks.length + 1) e (k :: ks) = true ↔ _
    unfold strncmpEq
    cases e with
    | nil => simp [Ne.symm hk]
    | cons x xs =>
      show (if x ≠ k then false else if x = 0 then true else strncmpEq ks.length xs ks) = true ↔ _
      rw [List.cons_prefix_cons]
      by_cases hx : x = k
      · subst hx
        rw [if_neg (by simp), if_neg hk, ih xs hks]; simp
      · rw [if_pos hx]; simp [Ne.symm hx]

theorem isEntry_prefix (key e : Bytes) (h : 0 ∉ key) : isEntry key e = (key ++ [61]).isPrefixOf e := by
  rw [Bool.eq_iff_iff, List.isPrefixOf_iff_prefix]
  unfold isEntry
  simp only [Bool.and_eq_true, decide_eq_true_eq, beq_iff_eq, strncmpEq_prefix key e h]
  constructor
  · rintro ⟨⟨_, h2⟩, t, rfl⟩
    cases t with
    | nil => simp at h2
    | cons x t =>
      rw [List.getElem?_append_right (Nat.le_refl _)] at h2
      simp at h2
      exact ⟨t, by rw [h2]; simp⟩
  · rintro ⟨t, rfl⟩
    refine ⟨⟨by simp, by simp⟩, ⟨61 :: t, by simp⟩⟩

theorem isPrefixOf_entry (key key' val : Bytes) (h : 61 ∉ key) (h' : 61 ∉ key') :
    (key ++ [61]).isPrefixOf (key' ++ 61 :: val) = decide (key' = key) := by
  rw [Bool.eq_iff_iff, List.isPrefixOf_iff_prefix, decide_eq_true_eq]
  constructor
  · induction key generalizing key' with
    | nil =>
      intro hp
      cases key' with
      | nil => rfl
      | cons x xs =>
        simp at hp
        exact absurd (by rw [hp]; exact List.mem_cons_self) h'
    | cons k ks ih =>
      intro hp
      cases key' with
      | nil =>
        simp at hp
        exact absurd (by rw [hp.1]; exact List.mem_cons_self) h
      | cons x xs =>
        simp only [List.cons_append, List.cons_prefix_cons] at hp
        rw [hp.1, ih xs (fun q => h (List.mem_cons_of_mem _ q)) (fun q => h' (List.mem_cons_of_mem _ q)) hp.2]
  · rintro rfl
    exact ⟨val, by simp⟩

theorem getenv_setenv (env : List Bytes) (key key' val : Bytes) (h : IsName key) (h' : IsName key') :
    getenv (setenv env key' val) key = if key' = key then some val else getenv env key := by
  have hd : List.drop (key'.length + 1) (key' ++ 61 :: val) = val := by simp
  induction env with
  | nil =>
    simp only [setenv, getenv, isPrefixOf_entry key key' val h.2.1 h'.2.1, decide_eq_true_eq]
    by_cases hk : key' = key
    · subst hk; rw [if_pos rfl, if_pos rfl, hd]
    · rw [if_neg hk, if_neg hk]
  | cons e es ih =>
    unfold setenv
    by_cases he : isEntry key' e = true
    · rw [if_pos he]
      simp only [getenv, isPrefixOf_entry key key' val h.2.1 h'.2.1, decide_eq_true_eq]
      by_cases hk : key' = key
      · subst hk; rw [if_pos rfl, if_pos rfl, hd]
      · rw [if_neg hk, if_neg hk]
        rw [isEntry_prefix _ _ h'.2.2, List.isPrefixOf_iff_prefix] at he
        obtain ⟨t, rfl⟩ := he
        rw [show key' ++ [61] ++ t = key' ++ 61 :: t by simp, isPrefixOf_entry key key' t h.2.1 h'.2.1, if_neg (by simpa using hk)]
    · rw [if_neg he]
      simp only [getenv, ih]
      by_cases hk : key' = key
      · subst hk
        rw [isEntry_prefix _ _ h'.2.2] at he
        rw [if_neg he, if_pos rfl, if_pos rfl]
      · simp only [if_neg hk]

theorem entriesOf_setenv (env : List Bytes) (key key' val : Bytes) (h : IsName key) (h' : IsName key') :
    entriesOf (setenv env key' val) key = if key' = key then max 1 (entriesOf env key) else entriesOf env key := by
  induction env with
  | nil =>
    simp only [setenv, entriesOf, List.filter_cons, isPrefixOf_entry key key' val h.2.1 h'.2.1, decide_eq_true_eq]
    by_cases hk : key' = key <;> simp [hk]
  | cons e es ih =>
    unfold setenv
    by_cases he : isEntry key' e = true
    · rw [if_pos he]
      rw [isEntry_prefix _ _ h'.2.2, List.isPrefixOf_iff_prefix] at he
      obtain ⟨t, rfl⟩ := he
      simp only [entriesOf, List.filter_cons, show key' ++ [61] ++ t = key' ++ 61 :: t by simp,
        isPrefixOf_entry key key' _ h.2.1 h'.2.1, decide_eq_true_eq]
      by_cases hk : key' = key
      · simp [hk]
      · simp [hk]
    · rw [if_neg he]
      simp only [entriesOf, List.filter_cons] at ih ⊢
      by_cases hk : key' = key
      · subst hk
        rw [isEntry_prefix _ _ h'.2.2] at he
        rw [if_neg he, if_neg he, ih]
      · rw [if_neg hk] at ih ⊢
        split <;> simp [ih]

theorem takeWhile_nul {e : Bytes} (h : 0 ∉ e) : e.takeWhile (· ≠ 0) = e := by
  induction e with
  | nil => rfl
  | cons x e ih =>
    have hx : x ≠ 0 := fun h' => h (by rw [h']; exact List.mem_cons_self)
    simp only [List.takeWhile_cons, decide_eq_true hx, if_true, ih (fun q => h (List.mem_cons_of_mem _ q))]

theorem childEnv_clean {env parent : List Bytes} (h : ∀ e ∈ env, 0 ∉ e) (hn : env = [] → parent = []) :
    childEnv env parent = env := by
  unfold childEnv
  split
  · rename_i h0; rw [h0, hn h0]
  · rw [List.map_congr_left (fun e he => takeWhile_nul (h e he)), List.map_id']

theorem mem_setenv (env : List Bytes) (key val e : Bytes) (h : e ∈ setenv env key val) : e ∈ env ∨ e = key ++ 61 :: val := by
  induction env with
  | nil => exact Or.inr (List.mem_singleton.1 h)
  | cons x es ih =>
    unfold setenv at h
    split at h
    · rcases List.mem_cons.1 h with h | h
      · exact Or.inr h
      · exact Or.inl (List.mem_cons_of_mem _ h)
    · rcases List.mem_cons.1 h with h | h
      · exact Or.inl (by rw [h]; exact List.mem_cons_self)
      · rcases ih h with h | h
        · exact Or.inl (List.mem_cons_of_mem _ h)
        · exact Or.inr h

theorem setenv_ne_nil (env : List Bytes) (key val : Bytes) : setenv env key val ≠ [] := by
  cases env with
  | nil => simp [setenv]
  | cons e es => unfold setenv; split <;> simp

/-- The settings made on an environment copied from the parent. -/
abbrev settings (parent : List Bytes) (l : List (Bytes × Bytes)) : List Bytes :=
  l.foldl (fun env kv => setenv env kv.1 kv.2) (copyEnv [] parent)

theorem settings_fold (key : Bytes) (h : IsName key) : ∀ (l : List (Bytes × Bytes)), (∀ kv ∈ l, IsName kv.1 ∧ 0 ∉ kv.2) →
    ∀ (env : List Bytes) (r : Option Bytes) (base : Option Bytes), (∀ e ∈ env, 0 ∉ e) → getenv env key = r.or base →
    let env' := l.foldl (fun env kv => setenv env kv.1 kv.2) env
    getenv env' key = (l.foldl (fun r kv => if kv.1 = key then some kv.2 else r) r).or base ∧
    (∀ e ∈ env', 0 ∉ e) ∧ (env' = [] → env = []) ∧
    entriesOf env' key = if l.any (fun kv => kv.1 = key) then max 1 (entriesOf env key) else entriesOf env key := by
  intro l
  induction l with
  | nil => intro _ env r base h1 h2; exact ⟨h2, h1, id, rfl⟩
  | cons kv l ih =>
    intro hl env r base h1 h2
    obtain ⟨hk, hv⟩ := hl kv List.mem_cons_self
    have hc : ∀ e ∈ setenv env kv.1 kv.2, 0 ∉ e := by
      intro e he
      rcases mem_setenv _ _ _ _ he with he | he
      · exact h1 e he
      · rw [he]; intro hm
        rcases List.mem_append.1 hm with hm | hm
        · exact hk.2.2 hm
        · rcases List.mem_cons.1 hm with hm | hm
          · cases hm
          · exact hv hm
    have hg : getenv (setenv env kv.1 kv.2) key = (if kv.1 = key then some kv.2 else r).or base := by
      rw [getenv_setenv _ _ _ _ h hk]; split
      · rfl
      · exact h2
    obtain ⟨a1, a2, a3, a4⟩ := ih (fun x hx => hl x (List.mem_cons_of_mem _ hx)) _ _ base hc hg
    refine ⟨a1, a2, fun e => absurd (a3 e) (setenv_ne_nil _ _ _), ?_⟩
    refine a4.trans ?_
    rw [entriesOf_setenv _ _ _ _ h hk, List.any_cons]
    by_cases hkk : kv.1 = key
    · simp only [if_pos hkk, decide_eq_true hkk, Bool.true_or, if_true]
      split <;> omega
    · simp only [if_neg hkk, decide_eq_false hkk, Bool.false_or]

/-- After the parent's environment has been copied, any sequence of settings gives every variable, in the program
that is started, the last value it was given, or else the value inherited. -/
theorem C43_values_partial (parent : List Bytes) (l : List (Bytes × Bytes)) (hp : ∀ e ∈ parent, 0 ∉ e)
    (hl : ∀ kv ∈ l, IsName kv.1 ∧ 0 ∉ kv.2) (key : Bytes) (h : IsName key) :
    getenv (childEnv (settings parent l) parent) key = (lastValue l key).or (getenv parent key) := by
  obtain ⟨a1, a2, a3, _⟩ := settings_fold key h l hl (copyEnv [] parent) none (getenv parent key) hp rfl
  rw [childEnv_clean (parent := parent) a2 a3, a1]; rfl

/-- No setting adds a second entry for a variable. -/
theorem C43_no_duplicates_partial (parent : List Bytes) (l : List (Bytes × Bytes)) (hp : ∀ e ∈ parent, 0 ∉ e)
    (hl : ∀ kv ∈ l, IsName kv.1 ∧ 0 ∉ kv.2) (key : Bytes) (h : IsName key) :
    entriesOf (childEnv (settings parent l) parent) key ≤ max 1 (entriesOf parent key) := by
  obtain ⟨_, a2, a3, a4⟩ := settings_fold key h l hl (copyEnv [] parent) none (getenv parent key) hp rfl
  rw [childEnv_clean (parent := parent) a2 a3, a4]
  have : entriesOf (copyEnv [] parent) key = entriesOf parent key := rfl
  rw [this]
  split <;> omega

/-- Setting one variable without copying the parent's environment first leaves the child with that variable only:
every other variable is lost. -/
theorem C43_violated_without_copy (parent : List Bytes) (key key' val : Bytes) (h : IsName key) (h' : IsName key')
    (hne : key' ≠ key) (hv : 0 ∉ val) : getenv (childEnv (setenv [] key' val) parent) key = none := by
  have hc : childEnv (setenv [] key' val) parent = setenv [] key' val := by
    refine childEnv_clean (fun e he => ?_) (fun h => absurd h (setenv_ne_nil _ _ _))
    rw [List.mem_singleton.1 he]; intro hm
    rcases List.mem_append.1 hm with hm | hm
    · exact h'.2.2 hm
    · rcases List.mem_cons.1 hm with hm | hm
      · cases hm
      · exact hv hm
  rw [hc, getenv_setenv _ _ _ _ h h', if_neg hne]; rfl

/-- Copying the parent's environment does not replace the environment, as documented: entries are appended, so a
variable set before is given twice. -/
theorem C43_violated_copy_after_set :
    entriesOf (childEnv (copyEnv (setenv [] [65] [49]) [[65, 61, 48]]) [[65, 61, 48]]) [65] = 2 := by decide

/-- `A=0`, `AB=2` inherited; `A=1`, `C=` and `A=3` set. -/
example : settings [[65, 61, 48], [65, 66, 61, 50]] [([65], [49]), ([67], []), ([65], [51])] =
    [[65, 61, 51], [65, 66, 61, 50], [67, 61]] ∧ IsName [65] ∧ IsName [67] := by unfold IsName; decide

end Msat.Props
