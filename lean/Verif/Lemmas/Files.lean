import Verif.Model.Files
import Mathlib.Data.List.TakeWhile

/-
Lemmas about paths.
-/
namespace Msat.Files
open Msat FilesSpec

theorem pieces_ne (p : Bytes) : pieces p ≠ [] := by
  cases p with
  | nil => simp [pieces]
  | cons c cs =>
    rw [pieces]
    split
    · simp
    · split <;> simp

theorem pieces_word (w p : Bytes) (r : List Bytes) (hw : 47 ∉ w) (hp : pieces p = [] :: r) : pieces (w ++ p) = w :: r := by
  induction w with
  | nil => exact hp
  | cons c cs ih =>
    rw [List.cons_append, pieces, if_neg (fun e => hw (by rw [e]; simp)), ih (fun h => hw (by simp [h]))]

theorem pieces_start (p : Bytes) (h : p = [] ∨ p.head? = some 47) : ∃ r, pieces p = [] :: r := by
  cases p with
  | nil => exact ⟨[], rfl⟩
  | cons c cs =>
    have : c = 47 := by simpa using h
    subst this
    exact ⟨_, by rw [pieces, if_pos rfl]⟩

theorem names_word (w p : Bytes) (hw0 : w ≠ []) (hw : 47 ∉ w) (hp : p = [] ∨ p.head? = some 47) :
    names (w ++ p) = w :: names p := by
  obtain ⟨r, hr⟩ := pieces_start p hp
  unfold names
  rw [pieces_word w p r hw hr, hr]
  have hl : ((w ++ p).getLast? = some 47) = (p.getLast? = some 47) := by
    cases p with
    | nil =>
      rw [List.append_nil]
      apply propext
      refine ⟨fun h => absurd (List.mem_of_getLast? h) hw, fun h => by cases h⟩
    | cons c cs => rw [List.getLast?_append, List.getLast?_eq_some_getLast (List.cons_ne_nil c cs), Option.some_or]
  simp only [hl]
  simp [hw0]

theorem names_slash (p : Bytes) (hp : p ≠ []) : names (47 :: p) = names p := by
  unfold names
  rw [pieces, if_pos rfl]
  obtain ⟨c, cs, rfl⟩ := List.exists_cons_of_ne_nil hp
  simp [List.getLast?_cons_cons]

theorem names_slashes (p : Bytes) (hp : p ≠ []) (h : ∀ c ∈ p, c = 47) : names p = [[46]] := by
  induction p with
  | nil => exact absurd rfl hp
  | cons c cs ih =>
    have hc := h c (by simp)
    subst hc
    by_cases hcs : cs = []
    · subst hcs; decide
    · rw [names_slash cs hcs]
      exact ih hcs fun c hc => h c (by simp [hc])

theorem reads_unique {ws : List Bytes} {p : Bytes} (h : Reads ws p) : ws = names p := by
  induction h with
  | nothing => rfl
  | slashes p h0 h => exact (names_slashes p h0 h).symm
  | slash ws p hp _ ih =>
    rw [names_slash p (by rintro rfl; obtain ⟨c, hc, _⟩ := hp; cases hc)]
    exact ih
  | name w ws p h0 hw hp _ ih => rw [names_word w p h0 hw hp, ih]

theorem reads_names (n : Nat) (p : Bytes) (hn : p.length ≤ n) : Reads (names p) p := by
  induction n generalizing p with
  | zero =>
    have : p = [] := List.length_eq_zero_iff.1 (by omega)
    subst this
    exact .nothing
  | succ n ih =>
    by_cases h0 : p = []
    · subst h0; exact .nothing
    by_cases hall : ∀ c ∈ p, c = 47
    · rw [names_slashes p h0 hall]; exact .slashes p h0 hall
    obtain ⟨c, cs, rfl⟩ := List.exists_cons_of_ne_nil h0
    have hn' : cs.length ≤ n := by simpa using hn
    by_cases hc : c = 47
    · subst hc
      have hex : ∃ c ∈ cs, c ≠ 47 := by
        refine Classical.byContradiction fun hno => hall fun c hc => ?_
        rcases List.mem_cons.1 hc with rfl | hc
        · rfl
        · exact Classical.byContradiction fun hne => hno ⟨c, hc, hne⟩
      have hcs : cs ≠ [] := by rintro rfl; obtain ⟨c, hc, _⟩ := hex; cases hc
      rw [names_slash cs hcs]
      exact .slash _ _ hex (ih cs hn')
    · have hsplit := List.takeWhile_append_dropWhile (p := fun x : UInt8 => x != 47) (l := c :: cs)
      have hw0 : (c :: cs).takeWhile (fun x : UInt8 => x != 47) ≠ [] := by
        rw [List.takeWhile_cons_of_pos (by simpa using hc)]; simp
      have hw : 47 ∉ (c :: cs).takeWhile (fun x : UInt8 => x != 47) := by
        intro h
        have := List.mem_takeWhile_imp h
        simp at this
      have hp : (c :: cs).dropWhile (fun x : UInt8 => x != 47) = [] ∨ ((c :: cs).dropWhile (fun x : UInt8 => x != 47)).head? = some 47 := by
        cases hd : (c :: cs).dropWhile (fun x : UInt8 => x != 47) with
        | nil => exact .inl rfl
        | cons x xs =>
          right
          have := List.head?_dropWhile_not (fun x : UInt8 => x != 47) (c :: cs)
          rw [hd] at this
          simpa using this
      have hlen : ((c :: cs).dropWhile (fun x : UInt8 => x != 47)).length ≤ n := by
        have := congrArg List.length hsplit
        rw [List.length_append] at this
        have h1 : 0 < ((c :: cs).takeWhile (fun x : UInt8 => x != 47)).length := List.length_pos_iff.2 hw0
        simp only [List.length_cons] at this
        omega
      generalize (c :: cs).takeWhile (fun x : UInt8 => x != 47) = w at *
      generalize (c :: cs).dropWhile (fun x : UInt8 => x != 47) = q at *
      rw [← hsplit, names_word w q hw0 hw hp]
      exact .name w _ q hw0 hw hp (ih q hlen)

theorem reads_iff (ws : List Bytes) (p : Bytes) : Reads ws p ↔ ws = names p :=
  ⟨reads_unique, fun h => by rw [h]; exact reads_names _ p (Nat.le_refl _)⟩

theorem names_ne (p : Bytes) (hp : p ≠ []) : names p ≠ [] := by
  intro h
  have hr := reads_names _ p (Nat.le_refl _)
  rw [h] at hr
  generalize hq : p = q at hr
  have : ∀ (ws : List Bytes) (q : Bytes), Reads ws q → ws = [] → q = [] := by
    intro ws q h
    induction h with
    | nothing => exact fun _ => rfl
    | slashes => intro h; cases h
    | slash ws p hp _ ih =>
      intro h
      have := ih h
      subst this
      obtain ⟨c, hc, _⟩ := hp
      cases hc
    | name => intro h; cases h
  subst hq
  exact hp (this _ _ hr rfl)

/-! ### Entries -/

theorem entry_ok {fs : FS} {d : Ino} {w : Bytes} {i : Ino} : entry fs d w = .ok i ↔ fs.Entry d w i := by
  unfold entry FS.Entry FS.entries
  cases (fs.node d).kind with
  | dir es =>
    dsimp only
    by_cases hx : (fs.node d).exec = true
    · rw [if_pos hx, if_pos hx]
      cases hl : es.lookup w with
      | none => simp [hl]
      | some j => simp [hl]
    · rw [if_neg hx, if_neg hx]; simp
  | _ => simp

theorem entry_enoent {fs : FS} {d : Ino} {w : Bytes} : entry fs d w = .error .enoent ↔ fs.NoEntry d w := by
  unfold entry FS.NoEntry FS.entries
  cases (fs.node d).kind with
  | dir es =>
    dsimp only
    by_cases hx : (fs.node d).exec = true
    · rw [if_pos hx, if_pos hx]
      cases hl : es.lookup w with
      | none => exact ⟨fun _ => ⟨es, rfl, hl⟩, fun _ => rfl⟩
      | some j =>
        refine ⟨fun h => (by cases h), ?_⟩
        rintro ⟨es', h1, h2⟩
        injection h1 with h1
        subst h1
        rw [hl] at h2
        cases h2
    · rw [if_neg hx, if_neg hx]; simp
  | _ => simp

theorem entry_enotdir {fs : FS} {d : Ino} {w : Bytes} : entry fs d w = .error .enotdir ↔ ¬ fs.isDir d := by
  unfold entry FS.isDir
  cases (fs.node d).kind with
  | dir es =>
    dsimp only
    by_cases hx : (fs.node d).exec = true
    · rw [if_pos hx]
      cases hl : es.lookup w <;> simp
    · rw [if_neg hx]; simp
  | _ => simp

theorem entry_errors {fs : FS} {d : Ino} {w : Bytes} {e : Errno} (h : entry fs d w = .error e) : e = .enoent ∨ e = .enotdir ∨ e = .eacces := by
  unfold entry at h
  cases hk : (fs.node d).kind with
  | dir es =>
    rw [hk] at h
    dsimp only at h
    split at h
    · split at h
      · cases h
      · cases h; simp
    · cases h; simp
  | _ => rw [hk] at h; cases h; simp

theorem isDir_iff {fs : FS} {i : Ino} : isDir fs i = true ↔ fs.isDir i := by
  unfold isDir FS.isDir
  cases (fs.node i).kind <;> simp

/-! ### Walking -/

theorem walk_nil (fs : FS) (follow : Bool) (k : Nat) (d : Ino) : walk fs follow k d [] = .ok d := by
  cases k <;> rfl

theorem steps_cons (fs : FS) (follow : Bool) (jump : Ino → List Bytes → Except Errno Ino) (d : Ino) (w : Bytes) (ws : List Bytes) :
    steps fs follow jump d (w :: ws) =
    match entry fs d w with
    | .error e => .error e
    | .ok i =>
      match (fs.node i).kind with
      | .link c cs => if ws = [] ∧ follow = false then .ok i else jump (fs.start d (c :: cs)) (names (c :: cs) ++ ws)
      | _ => steps fs follow jump i ws := rfl

theorem walk_cons (fs : FS) (follow : Bool) (k : Nat) (d : Ino) (w : Bytes) (ws : List Bytes) : walk fs follow k d (w :: ws) =
    match entry fs d w with
    | .error e => .error e
    | .ok i =>
      match (fs.node i).kind with
      | .link c cs =>
        if ws = [] ∧ follow = false then .ok i
        else
          match k with
          | 0 => .error .eloop
          | k + 1 => walk fs follow k (fs.start d (c :: cs)) (names (c :: cs) ++ ws)
      | _ => walk fs follow k i ws := by
  cases k with
  | zero => rw [walk, steps_cons]
  | succ k => rw [walk, steps_cons]

theorem walk_name (fs : FS) (follow : Bool) (k : Nat) (d i : Ino) (w : Bytes) (ws : List Bytes) (he : fs.Entry d w i)
    (hn : (∀ t, ¬ fs.Target i t) ∨ (ws = [] ∧ follow = false)) : walk fs follow k d (w :: ws) = walk fs follow k i ws := by
  rw [walk_cons, entry_ok.2 he]
  dsimp only
  split
  · rename_i c cs hk
    rcases hn with hn | hn
    · exact absurd ⟨c, cs, rfl, hk⟩ (hn (c :: cs))
    · rw [if_pos hn, hn.1, walk_nil]
  · rfl

theorem walk_link (fs : FS) (follow : Bool) (k : Nat) (d i : Ino) (w t : Bytes) (ws : List Bytes) (he : fs.Entry d w i)
    (ht : fs.Target i t) (hn : ¬ (ws = [] ∧ follow = false)) :
    walk fs follow (k + 1) d (w :: ws) = walk fs follow k (fs.start d t) (names t ++ ws) := by
  obtain ⟨c, cs, rfl, hk⟩ := ht
  rw [walk_cons, entry_ok.2 he]
  dsimp only
  rw [hk]
  dsimp only
  rw [if_neg hn]

theorem walk_loop (fs : FS) (follow : Bool) (d i : Ino) (w t : Bytes) (ws : List Bytes) (he : fs.Entry d w i)
    (ht : fs.Target i t) (hn : ¬ (ws = [] ∧ follow = false)) : walk fs follow 0 d (w :: ws) = .error .eloop := by
  obtain ⟨c, cs, rfl, hk⟩ := ht
  rw [walk_cons, entry_ok.2 he]
  dsimp only
  rw [hk]
  dsimp only
  rw [if_neg hn]

theorem walk_error (fs : FS) (follow : Bool) (k : Nat) (d : Ino) (w : Bytes) (ws : List Bytes) (e : Errno) (he : entry fs d w = .error e) :
    walk fs follow k d (w :: ws) = .error e := by
  rw [walk_cons, he]

/-- The function follows the relation. -/
theorem walk_along {fs : FS} {follow : Bool} {n : Nat} {d j : Ino} {ws vs : List Bytes} (h : Walk fs follow n d ws j vs) :
    ∀ k, n ≤ k → walk fs follow k d ws = walk fs follow (k - n) j vs := by
  induction h with
  | stay d ws => intro k _; rfl
  | name n d i j w ws vs he hn _ ih => intro k hk; rw [walk_name fs follow k d i w ws he hn, ih k hk]
  | link n d i j w t ws us vs he ht hn hr _ ih =>
    intro k hk
    obtain ⟨k, rfl⟩ : ∃ k', k = k' + 1 := ⟨k - 1, by omega⟩
    rw [walk_link fs follow k d i w t ws he ht hn, ← reads_unique hr, ih k (by omega)]
    congr 1
    omega

/-- Where the function ends. -/
inductive Ends (fs : FS) (follow : Bool) (k : Nat) (d : Ino) (ws : List Bytes) : Prop
  | here (n : Nat) (j : Ino) : n ≤ k → Walk fs follow n d ws j [] → Ends fs follow k d ws
  | stuck (n : Nat) (j : Ino) (w : Bytes) (vs : List Bytes) (e : Errno) : n ≤ k → Walk fs follow n d ws j (w :: vs) →
      entry fs j w = .error e → Ends fs follow k d ws
  | links (i j : Ino) (w t : Bytes) (vs : List Bytes) : Walk fs follow k d ws j (w :: vs) → fs.Entry j w i → fs.Target i t →
      ¬ (vs = [] ∧ follow = false) → Ends fs follow k d ws

theorem ends (fs : FS) (follow : Bool) (k : Nat) : ∀ (d : Ino) (ws : List Bytes), Ends fs follow k d ws := by
  induction k with
  | zero =>
    intro d ws
    induction ws generalizing d with
    | nil => exact .here 0 d (Nat.le_refl _) (.stay d [])
    | cons w ws ih =>
      cases he : entry fs d w with
      | error e => exact .stuck 0 d w ws e (Nat.le_refl _) (.stay _ _) he
      | ok i =>
        have he' := entry_ok.1 he
        by_cases hn : (∀ t, ¬ fs.Target i t) ∨ (ws = [] ∧ follow = false)
        · cases ih i with
          | here n j h1 h2 => exact .here n j h1 (.name n d i j w ws [] he' hn h2)
          | stuck n j w' vs e h1 h2 h3 => exact .stuck n j w' vs e h1 (.name n d i j w ws _ he' hn h2) h3
          | links i' j w' t vs h1 h2 h3 h4 => exact .links i' j w' t vs (.name 0 d i j w ws _ he' hn h1) h2 h3 h4
        · have hf : ¬ (ws = [] ∧ follow = false) := fun h => hn (.inr h)
          have : ∃ t, fs.Target i t := Classical.byContradiction fun h => hn (.inl fun t ht => h ⟨t, ht⟩)
          obtain ⟨t, ht⟩ := this
          exact .links i d w t ws (.stay _ _) he' ht hf
  | succ k ihk =>
    intro d ws
    induction ws generalizing d with
    | nil => exact .here 0 d (Nat.zero_le _) (.stay d [])
    | cons w ws ih =>
      cases he : entry fs d w with
      | error e => exact .stuck 0 d w ws e (Nat.zero_le _) (.stay _ _) he
      | ok i =>
        have he' := entry_ok.1 he
        by_cases hn : (∀ t, ¬ fs.Target i t) ∨ (ws = [] ∧ follow = false)
        · cases ih i with
          | here n j h1 h2 => exact .here n j h1 (.name n d i j w ws [] he' hn h2)
          | stuck n j w' vs e h1 h2 h3 => exact .stuck n j w' vs e h1 (.name n d i j w ws _ he' hn h2) h3
          | links i' j w' t vs h1 h2 h3 h4 => exact .links i' j w' t vs (.name _ d i j w ws _ he' hn h1) h2 h3 h4
        · have hf : ¬ (ws = [] ∧ follow = false) := fun h => hn (.inr h)
          have : ∃ t, fs.Target i t := Classical.byContradiction fun h => hn (.inl fun t ht => h ⟨t, ht⟩)
          obtain ⟨t, ht⟩ := this
          have hr := reads_names _ t (Nat.le_refl _)
          cases ihk (fs.start d t) (names t ++ ws) with
          | here n j h1 h2 => exact .here (n + 1) j (by omega) (.link n d i j w t ws _ [] he' ht hf hr h2)
          | stuck n j w' vs e h1 h2 h3 => exact .stuck (n + 1) j w' vs e (by omega) (.link n d i j w t ws _ _ he' ht hf hr h2) h3
          | links i' j w' t' vs h1 h2 h3 h4 => exact .links i' j w' t' vs (.link _ d i j w t ws _ _ he' ht hf hr h1) h2 h3 h4

theorem walk_ok {fs : FS} {follow : Bool} {k : Nat} {d j : Ino} {ws : List Bytes} :
    walk fs follow k d ws = .ok j ↔ ∃ n, n ≤ k ∧ Walk fs follow n d ws j [] := by
  constructor
  · intro h
    cases ends fs follow k d ws with
    | here n i h1 h2 =>
      rw [walk_along h2 k h1, walk_nil] at h
      injection h with h
      subst h
      exact ⟨n, h1, h2⟩
    | stuck n i w vs e h1 h2 h3 => rw [walk_along h2 k h1, walk_error fs follow _ i w vs e h3] at h; cases h
    | links i' i w t vs h1 h2 h3 h4 => rw [walk_along h1 k (Nat.le_refl _), Nat.sub_self, walk_loop fs follow i i' w t vs h2 h3 h4] at h; cases h
  · rintro ⟨n, h1, h2⟩
    rw [walk_along h2 k h1, walk_nil]

theorem walk_fails {fs : FS} {follow : Bool} {k : Nat} {d : Ino} {ws : List Bytes} {e : Errno} (hl : e ≠ .eloop) :
    walk fs follow k d ws = .error e ↔ ∃ n j w vs, n ≤ k ∧ Walk fs follow n d ws j (w :: vs) ∧ entry fs j w = .error e := by
  constructor
  · intro h
    cases ends fs follow k d ws with
    | here n i h1 h2 => rw [walk_along h2 k h1, walk_nil] at h; cases h
    | stuck n i w vs e' h1 h2 h3 =>
      rw [walk_along h2 k h1, walk_error fs follow _ i w vs e' h3] at h
      injection h with h
      subst h
      exact ⟨n, i, w, vs, h1, h2, h3⟩
    | links i' i w t vs h1 h2 h3 h4 =>
      rw [walk_along h1 k (Nat.le_refl _), Nat.sub_self, walk_loop fs follow i i' w t vs h2 h3 h4] at h
      injection h with h
      exact absurd h.symm hl
  · rintro ⟨n, j, w, vs, h1, h2, h3⟩
    rw [walk_along h2 k h1, walk_error fs follow _ j w vs e h3]

theorem walk_errors {fs : FS} {follow : Bool} {k : Nat} {d : Ino} {ws : List Bytes} {e : Errno} (h : walk fs follow k d ws = .error e) :
    e = .eloop ∨ e = .enoent ∨ e = .enotdir ∨ e = .eacces := by
  by_cases hl : e = .eloop
  · exact .inl hl
  · obtain ⟨_, _, _, _, _, _, h⟩ := (walk_fails hl).1 h
    exact .inr (entry_errors h)

/-! ### Paths -/

theorem resolve_ok {fs : FS} {d j : Ino} {follow : Bool} {p : Bytes} : resolve fs d follow p = .ok j ↔ At fs d follow p j := by
  unfold resolve At
  by_cases hp : p = []
  · simp [hp]
  · rw [if_neg hp, walk_ok]
    constructor
    · rintro ⟨n, h1, h2⟩; exact ⟨hp, names p, n, reads_names _ p (Nat.le_refl _), h1, h2⟩
    · rintro ⟨_, ws, n, h1, h2, h3⟩; rw [reads_unique h1] at h3; exact ⟨n, h2, h3⟩

theorem resolve_enoent {fs : FS} {d : Ino} {follow : Bool} {p : Bytes} : resolve fs d follow p = .error .enoent ↔ Absent fs d follow p := by
  unfold resolve Absent
  by_cases hp : p = []
  · simp [hp]
  · rw [if_neg hp, walk_fails (by simp)]
    constructor
    · rintro ⟨n, j, w, vs, h1, h2, h3⟩
      exact .inr ⟨names p, n, j, w, vs, reads_names _ p (Nat.le_refl _), h1, h2, entry_enoent.1 h3⟩
    · rintro (h | ⟨ws, n, j, w, vs, h1, h2, h3, h4⟩)
      · exact absurd h hp
      · rw [reads_unique h1] at h3; exact ⟨n, j, w, vs, h2, h3, entry_enoent.2 h4⟩

theorem resolve_enotdir {fs : FS} {d : Ino} {follow : Bool} {p : Bytes} : resolve fs d follow p = .error .enotdir ↔ Wall fs d follow p := by
  unfold resolve Wall
  by_cases hp : p = []
  · simp [hp]
  · rw [if_neg hp, walk_fails (by simp)]
    constructor
    · rintro ⟨n, j, w, vs, h1, h2, h3⟩
      exact ⟨hp, names p, n, j, w, vs, reads_names _ p (Nat.le_refl _), h1, h2, entry_enotdir.1 h3⟩
    · rintro ⟨_, ws, n, j, w, vs, h1, h2, h3, h4⟩
      rw [reads_unique h1] at h3; exact ⟨n, j, w, vs, h2, h3, entry_enotdir.2 h4⟩

theorem parent_ok {fs : FS} {p : Bytes} {d : Ino} {w : Bytes} : parent fs p = .ok (d, w) ↔ Place fs p d w := by
  unfold parent Place
  rcases List.eq_nil_or_concat (names p) with hn | ⟨l, x, hn⟩
  · rw [hn]
    simp only [List.getLast?_nil]
    refine ⟨fun h => (by cases h), ?_⟩
    rintro ⟨ws, n, h1, _⟩
    rw [← reads_unique h1] at hn
    simp at hn
  · rw [List.concat_eq_append] at hn
    rw [hn]
    simp only [List.getLast?_append, List.getLast?_singleton, Option.some_or, List.dropLast_concat]
    constructor
    · intro h
      cases hw : walk fs true maxLinks (fs.start fs.cwd p) l with
      | error e => rw [hw] at h; cases h
      | ok j =>
        rw [hw] at h
        replace h : (Except.ok (j, x) : Except Errno (Ino × Bytes)) = .ok (d, w) := h
        injection h with h
        injection h with h1 h2
        subst h1 h2
        obtain ⟨n, h1, h2⟩ := walk_ok.1 hw
        exact ⟨l, n, by rw [reads_iff]; exact hn.symm, h1, h2⟩
    · rintro ⟨ws, n, h1, h2, h3⟩
      have := reads_unique h1
      rw [hn] at this
      obtain ⟨e1, e2⟩ := List.append_inj' this rfl
      injection e2 with e2
      subst e1 e2
      rw [walk_ok.2 ⟨n, h2, h3⟩]
      rfl

/-- The last name is looked up in the directory the others lead to. -/
theorem walk_snoc (fs : FS) (w : Bytes) (k : Nat) : ∀ (d : Ino) (ws : List Bytes), walk fs false k d (ws ++ [w]) =
    match walk fs true k d ws with
    | .ok j => entry fs j w
    | .error e => .error e := by
  have last : ∀ k d, walk fs false k d [w] = entry fs d w := by
    intro k d
    cases he : entry fs d w with
    | error e => exact walk_error fs false k d w [] e he
    | ok i => rw [walk_name fs false k d i w [] (entry_ok.1 he) (.inr ⟨rfl, rfl⟩), walk_nil]
  induction k with
  | zero =>
    intro d ws
    induction ws generalizing d with
    | nil => rw [List.nil_append, last, walk_nil]
    | cons x xs ih =>
      rw [List.cons_append]
      cases he : entry fs d x with
      | error e => rw [walk_error fs false 0 d x _ e he, walk_error fs true 0 d x _ e he]
      | ok i =>
        have he' := entry_ok.1 he
        by_cases hn : ∀ t, ¬ fs.Target i t
        · rw [walk_name fs false 0 d i x _ he' (.inl hn), walk_name fs true 0 d i x _ he' (.inl hn), ih]
        · have : ∃ t, fs.Target i t := Classical.byContradiction fun h => hn fun t ht => h ⟨t, ht⟩
          obtain ⟨t, ht⟩ := this
          rw [walk_loop fs false d i x t _ he' ht (by simp), walk_loop fs true d i x t _ he' ht (by simp)]
  | succ k ihk =>
    intro d ws
    induction ws generalizing d with
    | nil => rw [List.nil_append, last, walk_nil]
    | cons x xs ih =>
      rw [List.cons_append]
      cases he : entry fs d x with
      | error e => rw [walk_error fs false _ d x _ e he, walk_error fs true _ d x _ e he]
      | ok i =>
        have he' := entry_ok.1 he
        by_cases hn : ∀ t, ¬ fs.Target i t
        · rw [walk_name fs false _ d i x _ he' (.inl hn), walk_name fs true _ d i x _ he' (.inl hn), ih]
        · have : ∃ t, fs.Target i t := Classical.byContradiction fun h => hn fun t ht => h ⟨t, ht⟩
          obtain ⟨t, ht⟩ := this
          rw [walk_link fs false k d i x t _ he' ht (by simp), walk_link fs true k d i x t _ he' ht (by simp), ← List.append_assoc, ihk]

theorem resolve_parent (fs : FS) (p : Bytes) : resolve fs fs.cwd false p =
    match parent fs p with
    | .ok (d, w) => entry fs d w
    | .error e => .error e := by
  unfold resolve parent
  by_cases hp : p = []
  · subst hp; rfl
  · rw [if_neg hp]
    rcases List.eq_nil_or_concat (names p) with hn | ⟨l, x, hn⟩
    · exact absurd hn (names_ne p hp)
    · rw [List.concat_eq_append] at hn
      rw [hn, walk_snoc]
      simp only [List.getLast?_append, List.getLast?_singleton, Option.some_or, List.dropLast_concat]
      cases walk fs true maxLinks (fs.start fs.cwd p) l <;> rfl

theorem walk_no_link {fs : FS} {n : Nat} {d j : Ino} {ws vs : List Bytes} (h : Walk fs true n d ws j vs) : vs = [] → ws ≠ [] →
    ∀ t, ¬ fs.Target j t := by
  induction h with
  | stay d ws => intro h1 h2; exact absurd h1 h2
  | name n d i j w ws vs he hn hw ih =>
    intro h1 _
    by_cases hws : ws = []
    · subst hws
      cases hw
      rcases hn with hn | hn
      · exact hn
      · cases hn.2
    · exact ih h1 hws
  | link n d i j w t ws us vs he ht hn hr hw ih =>
    intro h1 _
    refine ih h1 ?_
    obtain ⟨c, cs, rfl, _⟩ := ht
    rw [reads_unique hr]
    intro h
    exact names_ne (c :: cs) (by simp) (List.append_eq_nil_iff.1 h).1

/-- A path that is followed to its end does not lead to a link. -/
theorem at_no_link {fs : FS} {d j : Ino} {p : Bytes} (h : At fs d true p j) (t : Bytes) : ¬ fs.Target j t := by
  obtain ⟨hp, ws, n, hr, _, hw⟩ := h
  refine walk_no_link hw rfl ?_ t
  rw [reads_unique hr]
  exact names_ne p hp

/-! ### Changing directories -/

theorem update_node (fs : FS) (d : Ino) (f : List (Bytes × Ino) → List (Bytes × Ino)) (i : Ino) (h : i ≠ d) : (update fs d f).node i = fs.node i := by
  unfold update
  split
  · exact if_neg h
  · rfl

theorem update_root (fs : FS) (d : Ino) (f : List (Bytes × Ino) → List (Bytes × Ino)) :
    (update fs d f).root = fs.root ∧ (update fs d f).cwd = fs.cwd := by
  unfold update; split <;> exact ⟨rfl, rfl⟩

theorem update_dir (fs : FS) (d : Ino) (f : List (Bytes × Ino) → List (Bytes × Ino)) (es : List (Bytes × Ino)) (h : (fs.node d).kind = .dir es) :
    (update fs d f).node d = { fs.node d with kind := .dir (f es) } := by
  unfold update
  rw [h]
  exact if_pos rfl

theorem update_entries (fs : FS) (d : Ino) (f : List (Bytes × Ino) → List (Bytes × Ino)) (es : List (Bytes × Ino)) (h : fs.entries d = some es) :
    (update fs d f).entries d = some (f es) := by
  unfold FS.entries at h
  cases hk : (fs.node d).kind with
  | dir es' =>
    rw [hk] at h
    dsimp only at h
    by_cases hx : (fs.node d).exec = true
    · rw [if_pos hx] at h
      injection h with h
      subst h
      unfold FS.entries
      rw [update_dir fs d f es' hk]
      exact if_pos hx
    · rw [if_neg hx] at h; cases h
  | _ => rw [hk] at h; cases h

theorem entries_dir {fs : FS} {d : Ino} {es : List (Bytes × Ino)} (h : fs.entries d = some es) : fs.isDir d := by
  unfold FS.entries at h
  cases hk : (fs.node d).kind with
  | dir es' => exact ⟨es', hk⟩
  | _ => rw [hk] at h; cases h

theorem update_sameBut (fs : FS) (d : Ino) (f : List (Bytes × Ino) → List (Bytes × Ino)) (h : fs.isDir d) : fs.SameBut (update fs d f) d := by
  obtain ⟨es, h⟩ := h
  have := update_dir fs d f es h
  exact ⟨(update_root fs d f).1, (update_root fs d f).2, update_node fs d f, ⟨_, by rw [this]⟩, ⟨es, h⟩, by rw [this], by rw [this], by rw [this]⟩

theorem entries_other (fs : FS) (d e : Ino) (f : List (Bytes × Ino) → List (Bytes × Ino)) (h : e ≠ d) : (update fs d f).entries e = fs.entries e := by
  unfold FS.entries
  rw [update_node fs d f e h]

theorem lookup_filter (es : List (Bytes × Ino)) (w v : Bytes) : (es.filter (·.1 ≠ w)).lookup v = if v = w then none else es.lookup v := by
  induction es with
  | nil => simp
  | cons x xs ih =>
    obtain ⟨a, b⟩ := x
    by_cases ha : a = w
    · rw [List.filter_cons_of_neg (by simpa using ha), ih]
      by_cases hv : v = w
      · simp [hv]
      · rw [if_neg hv, if_neg hv, List.lookup_cons]
        have : (v == a) = false := by rw [ha]; simpa using hv
        rw [this]
    · rw [List.filter_cons_of_pos (by simpa using ha), List.lookup_cons, ih, List.lookup_cons]
      by_cases hv : v = w
      · have : (v == a) = false := by rw [hv]; simpa using Ne.symm ha
        rw [this, if_pos hv]
      · simp [hv]

end Msat.Files
