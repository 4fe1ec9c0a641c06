import Verif.Spec.GribKeys
import Verif.Lemmas.Outcome

/-
Lemmas on the calls of an export to GRIB.
-/
namespace Msat.GribKeys
open Msat GribKeysSpec

variable {H : Type} {lib : Lib H} {value : H → String → Option Val}

theorem setAll_append (a b : List (String × ℤ)) (h : H) :
    setAll lib (a ++ b) h = (setAll lib a h).bind (setAll lib b) := by
  induction a generalizing h with
  | nil => rfl
  | cons x xs ih =>
    obtain ⟨k, v⟩ := x
    simp only [List.cons_append, setAll, ih]
    split <;> rfl

/-- A call and those after it. -/
theorem run_cons_ok {op : Op} {rest : List Op} {h h' : H} (e : run lib (op :: rest) h = .ok (some h')) :
    ∃ h1, run lib [op] h = .ok (some h1) ∧ run lib rest h1 = .ok (some h') := by
  cases op with
  | set k v =>
    rw [run] at e ⊢
    dsimp only at e ⊢
    by_cases hk : (lib.set h k v).2 = true
    · rw [if_pos hk] at e ⊢; exact ⟨_, rfl, e⟩
    · rw [if_neg hk] at e; cases e
  | trySet k v => rw [run] at e ⊢; exact ⟨_, rfl, e⟩
  | oneOf k v =>
    rw [run] at e ⊢
    dsimp only at e ⊢
    by_cases hk : (lib.set h k (.long v)).2 = true
    · rw [if_pos hk] at e ⊢; exact ⟨_, rfl, e⟩
    · rw [if_neg hk] at e; cases e
  | edition a b =>
    rw [run] at e ⊢
    cases hg : lib.get h "editionNumber" with
    | none => rw [hg] at e; cases e
    | some n =>
      rw [hg] at e
      dsimp only at e ⊢
      cases hs : (if n = 1 then setAll lib a h else if n = 2 then setAll lib b h else none) with
      | none => rw [hs] at e; cases e
      | some h1 => rw [hs] at e; exact ⟨h1, rfl, e⟩
  | stop o =>
    rw [run] at e
    cases o <;> cases e

theorem run_append_ok {a b : List Op} {h h' : H} (e : run lib (a ++ b) h = .ok (some h')) :
    ∃ h1, run lib a h = .ok (some h1) ∧ run lib b h1 = .ok (some h') := by
  induction a generalizing h with
  | nil => exact ⟨h, rfl, e⟩
  | cons op rest ih =>
    obtain ⟨h1, e1, e2⟩ := run_cons_ok (rest := rest ++ b) e
    obtain ⟨h2, e3, e4⟩ := ih e2
    refine ⟨h2, ?_, e4⟩
    cases op with
    | set k v =>
      rw [run] at e1 ⊢
      dsimp only at e1 ⊢
      by_cases hk : (lib.set h k v).2 = true
      · rw [if_pos hk] at e1 ⊢; cases e1; exact e3
      · rw [if_neg hk] at e1; cases e1
    | trySet k v => rw [run] at e1 ⊢; cases e1; exact e3
    | oneOf k v =>
      rw [run] at e1 ⊢
      dsimp only at e1 ⊢
      by_cases hk : (lib.set h k (.long v)).2 = true
      · rw [if_pos hk] at e1 ⊢; cases e1; exact e3
      · rw [if_neg hk] at e1; cases e1
    | edition a b =>
      rw [run] at e1 ⊢
      cases hg : lib.get h "editionNumber" with
      | none => rw [hg] at e1; cases e1
      | some n =>
        rw [hg] at e1
        dsimp only at e1 ⊢
        cases hs : (if n = 1 then setAll lib a h else if n = 2 then setAll lib b h else none) with
        | none => rw [hs] at e1; cases e1
        | some h1 => rw [hs] at e1; cases e1; exact e3
    | stop o =>
      rw [run] at e1
      cases o <;> cases e1

/-- Calls after which the export goes on with more. -/
theorem run_append {a b : List Op} {h h1 : H} (e : run lib a h = .ok (some h1)) : run lib (a ++ b) h = run lib b h1 := by
  induction a generalizing h with
  | nil => cases e; rfl
  | cons op rest ih =>
    obtain ⟨h2, e1, e2⟩ := run_cons_ok e
    have := ih e2
    rw [List.cons_append]
    cases op with
    | set k v =>
      rw [run] at e1 ⊢
      dsimp only at e1 ⊢
      by_cases hk : (lib.set h k v).2 = true
      · rw [if_pos hk] at e1 ⊢; cases e1; exact this
      · rw [if_neg hk] at e1; cases e1
    | trySet k v => rw [run] at e1 ⊢; cases e1; exact this
    | oneOf k v =>
      rw [run] at e1 ⊢
      dsimp only at e1 ⊢
      by_cases hk : (lib.set h k (.long v)).2 = true
      · rw [if_pos hk] at e1 ⊢; cases e1; exact this
      · rw [if_neg hk] at e1; cases e1
    | edition a b =>
      rw [run] at e1 ⊢
      cases hg : lib.get h "editionNumber" with
      | none => rw [hg] at e1; cases e1
      | some n =>
        rw [hg] at e1
        dsimp only at e1 ⊢
        cases hs : (if n = 1 then setAll lib a h else if n = 2 then setAll lib b h else none) with
        | none => rw [hs] at e1; cases e1
        | some h1 => rw [hs] at e1; cases e1; exact this
    | stop o =>
      rw [run] at e1
      cases o <;> cases e1

/-- The keys that a call may change. -/
def Op.keys : Op → List String
  | .set k _ => [k]
  | .trySet k _ => [k]
  | .oneOf k _ => [k]
  | .edition a b => a.map Prod.fst ++ b.map Prod.fst
  | .stop _ => []

theorem setAll_keeps (hl : Keeps lib value) {k : String} {l : List (String × ℤ)} {h h' : H}
    (e : setAll lib l h = some h') (hk : k ∉ l.map Prod.fst) : value h' k = value h k := by
  induction l generalizing h with
  | nil => cases e; rfl
  | cons x xs ih =>
    obtain ⟨k', v⟩ := x
    rw [setAll] at e
    dsimp only at e
    split at e
    · rw [ih e (fun hm => hk (by simp [hm]))]
      exact hl.others _ _ _ _ (fun he => hk (by simp [he]))
    · cases e

theorem run_keeps (hl : Keeps lib value) {k : String} {l : List Op} {h h' : H}
    (e : run lib l h = .ok (some h')) (hk : k ∉ l.flatMap Op.keys) : value h' k = value h k := by
  induction l generalizing h with
  | nil => cases e; rfl
  | cons op rest ih =>
    obtain ⟨h1, e1, e2⟩ := run_cons_ok e
    rw [ih e2 (fun hm => hk (by rw [List.flatMap_cons]; exact List.mem_append_right _ hm))]
    have hk' : k ∉ op.keys := fun hm => hk (by rw [List.flatMap_cons]; exact List.mem_append_left _ hm)
    cases op with
    | set k' v =>
      rw [run] at e1
      dsimp only at e1
      split at e1
      · cases e1
        exact hl.others _ _ _ _ (fun he => hk' (by simp [Op.keys, he]))
      · cases e1
    | trySet k' v =>
      rw [run] at e1
      cases e1
      exact hl.others _ _ _ _ (fun he => hk' (by simp [Op.keys, he]))
    | oneOf k' v =>
      rw [run] at e1
      dsimp only at e1
      split at e1
      · cases e1
        exact hl.others _ _ _ _ (fun he => hk' (by simp [Op.keys, he]))
      · cases e1
    | edition a b =>
      rw [run] at e1
      cases hg : lib.get h "editionNumber" with
      | none => rw [hg] at e1; cases e1
      | some n =>
        rw [hg] at e1
        dsimp only at e1
        simp only [Op.keys, List.mem_append, not_or] at hk'
        split_ifs at e1
        · cases hs : setAll lib a h with
          | none => rw [hs] at e1; cases e1
          | some h2 => rw [hs] at e1; cases e1; exact setAll_keeps hl hs hk'.1
        · cases hs : setAll lib b h with
          | none => rw [hs] at e1; cases e1
          | some h2 => rw [hs] at e1; cases e1; exact setAll_keeps hl hs hk'.2
        · cases e1
    | stop o =>
      rw [run] at e1
      cases o <;> cases e1

/-- The value that a call gives to a key. -/
def Op.gives (k : String) : Op → Option Val
  | .set k' v => if k' = k then some v else none
  | .oneOf k' v => if k' = k then some (.long v) else none
  | _ => none

/-- The value that calls leave in a key, if the last of them that mentions it gives one. -/
def said : List Op → String → Option Val
  | [], _ => none
  | op :: rest, k =>
    if k ∈ rest.flatMap Op.keys then said rest k
    else op.gives k

theorem run_said (hl : Keeps lib value) {k : String} {v : Val} {l : List Op} {h h' : H}
    (e : run lib l h = .ok (some h')) (hk : said l k = some v) : value h' k = some v := by
  induction l generalizing h with
  | nil => cases hk
  | cons op rest ih =>
    obtain ⟨h1, e1, e2⟩ := run_cons_ok e
    rw [said] at hk
    by_cases hm : k ∈ rest.flatMap Op.keys
    · rw [if_pos hm] at hk; exact ih e2 hk
    · rw [if_neg hm] at hk
      rw [run_keeps hl e2 hm]
      cases op with
      | set k' w =>
        simp only [Op.gives] at hk
        split at hk
        · rename_i he
          subst he
          cases hk
          rw [run] at e1
          dsimp only at e1
          split at e1
          · rename_i ho
            cases e1
            exact hl.same _ _ _ ho
          · cases e1
        · cases hk
      | oneOf k' w =>
        simp only [Op.gives] at hk
        split at hk
        · rename_i he
          subst he
          cases hk
          rw [run] at e1
          dsimp only at e1
          split at e1
          · rename_i ho
            cases e1
            exact hl.same _ _ _ ho
          · cases e1
        · cases hk
      | _ => cases hk

/-- Calls that change only keys of a list. -/
def KeysIn (l : List Op) (ks : List String) : Prop := ∀ k ∈ l.flatMap Op.keys, k ∈ ks

theorem KeysIn.append {a b : List Op} {ka kb : List String} (ha : KeysIn a ka) (hb : KeysIn b kb) :
    KeysIn (a ++ b) (ka ++ kb) := by
  intro k hk
  rw [List.flatMap_append, List.mem_append] at hk
  rcases hk with h | h
  · exact List.mem_append_left _ (ha k h)
  · exact List.mem_append_right _ (hb k h)

theorem KeysIn.both {a b : List Op} {ks : List String} (ha : KeysIn a ks) (hb : KeysIn b ks) : KeysIn (a ++ b) ks := by
  intro k hk
  rw [List.flatMap_append, List.mem_append] at hk
  exact hk.elim (ha k) (hb k)

theorem KeysIn.of {l : List Op} {ks : List String} (l' : List String) (he : l.flatMap Op.keys = l')
    (h : ∀ k ∈ l', k ∈ ks) : KeysIn l ks := fun k hk => h k (he ▸ hk)

theorem KeysIn.nil (ks : List String) : KeysIn [] ks := fun _ hk => by simp at hk

theorem KeysIn.mono {a : List Op} {ka kb : List String} (ha : KeysIn a ka) (h : ∀ k ∈ ka, k ∈ kb) : KeysIn a kb :=
  fun k hk => h k (ha k hk)

/-- What a part of the calls says stays, if those after it do not mention it. -/
theorem settled (hl : Keeps lib value) {a b : List Op} {ks : List String} {L : List (String × ℤ)} {h0 h h' : H}
    (ea : run lib a h0 = .ok (some h)) (eb : run lib b h = .ok (some h'))
    (hs : ∀ kv ∈ L, said a kv.1 = some (.long kv.2)) (hb : KeysIn b ks) (hd : ∀ kv ∈ L, kv.1 ∉ ks) :
    ∀ kv ∈ L, value h' kv.1 = some (.long kv.2) := by
  intro kv hm
  rw [run_keeps hl eb (fun hk => hd kv hm (hb _ hk))]
  exact run_said hl ea (hs kv hm)

theorem KeysIn.compute {α : Type} {o : Outcome α} {f : α → List Op} {ks : List String}
    (h : ∀ a, KeysIn (f a) ks) : KeysIn (compute o f) ks := by
  cases o with
  | ok a => exact h a
  | _ => intro k hk; simp [GribKeys.compute, Op.keys] at hk

/-- A call that computes a number goes on only if there is one. -/
theorem run_compute_ok {α : Type} {o : Outcome α} {f : α → List Op} {rest : List Op} {h h' : H}
    (e : run lib (compute o f ++ rest) h = .ok (some h')) : ∃ a, o = .ok a := by
  cases o with
  | ok a => exact ⟨a, rfl⟩
  | _ => exact absurd e (by simp [compute, run, Outcome.bind])

end Msat.GribKeys
