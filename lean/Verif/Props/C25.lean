import Verif.Lemmas.Path

/-
C25 Path helpers.
-/
namespace Msat.Props
open Msat Str StrSpec

/-! ### basename and dirname -/

/-- `basename` is what follows the last slash. -/
theorem C25_basename (d n : Bytes) (hn : (47 : UInt8) ∉ n) :
    basename (d ++ 47 :: n) = n ∧ basename n = n := by
  constructor
  · unfold basename
    rw [show d ++ 47 :: n = d ++ slash :: n from rfl, StdString.rfind_sep (c := slash) rfl hn]
    simp [StdString.substrFrom]
  · unfold basename
    rw [StdString.rfind_none (c := slash) hn]

theorem skipBackward_trim (s a b : Bytes) (e : s.take (a.length + b.length) = a ++ b)
    (hl : a.length + b.length ≤ s.length)
    (ha : a.getLast? ≠ some 47) (hb : ∀ c ∈ b, c = 47) :
    skipBackward (· == slash) s 0 (a.length + b.length) = a.length := by
  obtain ⟨_, h2, h3, h4⟩ := skipBackward_spec (· == slash) s 0 (a.length + b.length) (by omega)
  generalize skipBackward (· == slash) s 0 (a.length + b.length) = r at *
  have hget : ∀ i, i < a.length + b.length → s.getD i 0 = (a ++ b).getD i 0 := by
    intro i hi
    rw [← e, getD_eq (by omega), getD_eq (by rw [List.length_take]; omega), List.getElem_take]
  rcases Nat.lt_trichotomy r a.length with h | h | h
  · exfalso
    apply ha
    have := h3 (a.length - 1) (by omega) (by omega)
    rw [hget _ (by omega), getD_eq (by rw [List.length_append]; omega), List.getElem_append_left (by omega)] at this
    rw [List.getLast?_eq_getElem?, List.getElem?_eq_getElem (by omega)]
    congr 1
    simpa [slash] using this
  · exact h
  · exfalso
    have := h4 (by omega)
    rw [hget _ (by omega), getD_eq (by rw [List.length_append]; omega), List.getElem_append_right (by omega)] at this
    rw [hb _ (List.getElem_mem _)] at this
    simp [slash] at this

theorem isName_last (n : Bytes) (hn : IsName n) : n.getLast? ≠ some 47 := name_last n hn

/-- `dirname` of a directory and a name, with any number of slashes between them and at the end, is the
directory, or `/` when there is nothing before the slashes. -/
theorem C25_dirname (dir name : Bytes) (k m : Nat) (hd : dir.getLast? ≠ some 47) (hn : IsName name) (hk : 0 < k) :
    dirname (dir ++ List.replicate k 47 ++ name ++ List.replicate m 47) = if dir = [] then [47] else dir := by
  generalize hp : dir ++ List.replicate k 47 ++ name ++ List.replicate m 47 = p
  have hlen : p.length = dir.length + k + name.length + m := by
    rw [← hp]; simp; omega
  have hnl := List.length_pos_iff.2 hn.1
  unfold dirname
  rw [if_neg (by intro e; rw [e] at hlen; simp at hlen; omega)]
  have e1 : skipBackward (· == slash) p 0 p.length = dir.length + k + name.length := by
    have := skipBackward_trim p (dir ++ List.replicate k 47 ++ name) (List.replicate m 47)
      (by rw [← hp]; rw [List.take_of_length_le]; simp; omega)
      (by rw [← hp]; simp; omega)
      (by
        intro e
        rw [List.getLast?_append] at e
        cases hx : name.getLast? with
        | none => exact absurd (List.getLast?_eq_none_iff.1 hx) hn.1
        | some x => rw [hx] at e; exact name_last name hn (by rw [hx]; exact e))
      (fun c hc => List.eq_of_mem_replicate hc)
    have hl2 : (dir ++ List.replicate k 47 ++ name).length = dir.length + k + name.length := by simp; omega
    rw [hl2, List.length_replicate, ← hlen] at this
    exact this
  dsimp only
  rw [e1, if_neg (by omega)]
  have hrf : rfindUpTo p (dir.length + k + name.length - 1) = some (dir.length + k - 1) := by
    unfold rfindUpTo
    rw [show dir.length + k + name.length - 1 + 1 = dir.length + k + name.length by omega]
    have ht : p.take (dir.length + k + name.length) = (dir ++ List.replicate (k - 1) 47) ++ 47 :: name := by
      have h2 : dir ++ List.replicate k 47 ++ name = (dir ++ List.replicate (k - 1) 47) ++ 47 :: name := by
        obtain ⟨j, rfl⟩ : ∃ j, k = j + 1 := ⟨k - 1, by omega⟩
        rw [List.replicate_succ', Nat.add_sub_cancel]
        simp
      rw [← h2, ← hp, show dir.length + k + name.length = (dir ++ List.replicate k 47 ++ name).length by simp; omega]
      exact List.take_left
    rw [StdString.rfind_sep (c := slash) ht hn.2]
    simp; omega
  rw [hrf]
  dsimp only
  have e2 : skipBackward (· == slash) p 0 (dir.length + k - 1) = dir.length := by
    have := skipBackward_trim p dir (List.replicate (k - 1) 47)
      (by
        rw [← hp, show dir.length + (List.replicate (k - 1) (47 : UInt8)).length
          = (dir ++ List.replicate (k - 1) 47).length by simp]
        obtain ⟨j, rfl⟩ : ∃ j, k = j + 1 := ⟨k - 1, by omega⟩
        rw [List.replicate_succ', Nat.add_sub_cancel]
        rw [show dir ++ (List.replicate j 47 ++ [47]) ++ name ++ List.replicate m 47
          = (dir ++ List.replicate j 47) ++ ([47] ++ name ++ List.replicate m 47) by simp]
        exact List.take_left)
      (by rw [List.length_replicate]; omega) hd (fun c hc => List.eq_of_mem_replicate hc)
    rw [List.length_replicate, show dir.length + (k - 1) = dir.length + k - 1 by omega] at this
    exact this
  rw [e2]
  by_cases h0 : dir = []
  · subst h0; rfl
  · have := List.length_pos_iff.2 h0
    rw [if_neg (by omega), if_neg h0, ← hp]
    simp [StdString.substr]

/-- `dirname` of a single name is the current directory; of nothing too; of slashes only it is the root. -/
theorem C25_dirname_simple (name : Bytes) (m : Nat) (hn : IsName name) :
    dirname (name ++ List.replicate m 47) = [46] ∧ dirname [] = [46] ∧
    dirname (List.replicate (m + 1) 47) = [47] := by
  refine ⟨?_, rfl, ?_⟩
  · generalize hp : name ++ List.replicate m 47 = p
    have hnl := List.length_pos_iff.2 hn.1
    have hlen : p.length = name.length + m := by rw [← hp]; simp
    unfold dirname
    rw [if_neg (by intro e; rw [e] at hlen; simp at hlen; omega)]
    have e1 : skipBackward (· == slash) p 0 p.length = name.length := by
      have := skipBackward_trim p name (List.replicate m 47)
        (by rw [← hp, List.take_of_length_le]; simp) (by rw [← hp]; simp)
        (name_last name hn) (fun c hc => List.eq_of_mem_replicate hc)
      rwa [List.length_replicate, ← hlen] at this
    dsimp only
    rw [e1, if_neg (by omega)]
    have : rfindUpTo p (name.length - 1) = none := by
      unfold rfindUpTo
      rw [show name.length - 1 + 1 = name.length by omega, ← hp, List.take_left]
      exact StdString.rfind_none hn.2
    rw [this]
    rfl
  · unfold dirname
    rw [if_neg (by simp)]
    have := skipBackward_trim (List.replicate (m + 1) 47) [] (List.replicate (m + 1) 47)
      (by rw [List.take_of_length_le] <;> simp) (by simp) (by simp) (fun c hc => List.eq_of_mem_replicate hc)
    rw [List.length_nil, Nat.zero_add] at this
    dsimp only
    rw [this, if_pos rfl]
    rfl

/-- These cases are all the paths. -/
theorem C25_dirname_cases (p : Bytes) : p = [] ∨ (∃ m, p = List.replicate (m + 1) 47) ∨
    (∃ name m, IsName name ∧ p = name ++ List.replicate m 47) ∨
    ∃ dir name k m, dir.getLast? ≠ some 47 ∧ IsName name ∧ 0 < k ∧
      p = dir ++ List.replicate k 47 ++ name ++ List.replicate m 47 := by
  have trail : ∀ q : Bytes, ∃ (a : Bytes) (m : Nat), a.getLast? ≠ some 47 ∧ q = a ++ List.replicate m 47 := by
    intro q
    induction hq : q.length generalizing q with
    | zero => exact ⟨[], 0, by simp, by rw [List.eq_nil_of_length_eq_zero hq]; rfl⟩
    | succ n ih =>
      rcases List.eq_nil_or_concat q with rfl | ⟨r, c, rfl⟩
      · simp at hq
      · by_cases hc : c = 47
        · obtain ⟨a, m, ha, hr⟩ := ih r (by simpa using hq)
          refine ⟨a, m + 1, ha, ?_⟩
          rw [hr, hc, List.replicate_succ']; simp
        · exact ⟨r ++ [c], 0, by simpa using hc, by simp⟩
  obtain ⟨a, m, ha, rfl⟩ := trail p
  by_cases h0 : a = []
  · subst h0
    cases m with
    | zero => exact .inl rfl
    | succ m => exact .inr (.inl ⟨m, rfl⟩)
  · by_cases hs : (47 : UInt8) ∈ a
    · have : ∃ x n, a = x ++ 47 :: n ∧ (47 : UInt8) ∉ n := by
        clear ha h0
        induction a with
        | nil => cases hs
        | cons c cs ih =>
          by_cases hcs : (47 : UInt8) ∈ cs
          · obtain ⟨x, n, rfl, hn⟩ := ih hcs
            exact ⟨c :: x, n, rfl, hn⟩
          · rcases List.mem_cons.1 hs with h | h
            · subst h; exact ⟨[], cs, rfl, hcs⟩
            · exact absurd h hcs
      obtain ⟨x, n, rfl, hn⟩ := this
      obtain ⟨dir, k, hdir, rfl⟩ := trail x
      refine .inr (.inr (.inr ⟨dir, n, k + 1, m, hdir, ⟨?_, hn⟩, by omega, ?_⟩))
      · rintro rfl; simp at ha
      · rw [List.replicate_succ']; simp
    · exact .inr (.inr (.inl ⟨a, m, ⟨h0, hs⟩, rfl⟩))

/-! ### Joining -/

/-- Joining puts exactly one slash between the parts, whether or not the parts have one there. -/
theorem C25_one_slash (d n : Bytes) (hd : d ≠ []) (hl : d.getLast? ≠ some 47) (hn : n ≠ []) (hh : n.head? ≠ some 47) :
    appendpath d n = d ++ 47 :: n ∧ appendpath (d ++ [47]) n = d ++ 47 :: n ∧
    appendpath d (47 :: n) = d ++ 47 :: n ∧ appendpath (d ++ [47]) (47 :: n) = d ++ 47 :: n := by
  have hlen := List.length_pos_iff.2 hd
  have h1 : d.getD (d.length - 1) 0 ≠ slash := by
    intro e
    apply hl
    rw [List.getLast?_eq_getElem?, List.getElem?_eq_getElem (by omega), ← getD_eq (by omega), e]
    rfl
  have h2 : n.getD 0 0 ≠ slash := by
    cases n with
    | nil => exact absurd rfl hn
    | cons c cs => intro e; apply hh; rw [List.getD_cons_zero] at e; rw [e]; rfl
  have h3 : (d ++ [47]).getD ((d ++ [47]).length - 1) 0 = slash := by
    simp [List.getD_eq_getElem?_getD, slash]
  have h4 : (47 :: n).getD 0 0 = slash := rfl
  refine ⟨?_, ?_, ?_, ?_⟩ <;> unfold appendpath
  · rw [if_neg hn, if_neg hd, if_neg h1, if_neg h2]; simp [slash]
  · rw [if_neg hn, if_neg (by simp), if_pos h3, if_neg h2]; simp
  · rw [if_neg (by simp), if_neg hd, if_neg h1, if_pos h4]
  · rw [if_neg (by simp), if_neg (by simp), if_pos h3, if_pos h4]; simp [StdString.substrFrom]

/-- Joining with nothing changes nothing. -/
theorem C25_join_empty (p : Bytes) : appendpath p [] = p ∧ appendpath [] p = p := by
  unfold appendpath
  refine ⟨by simp, ?_⟩
  by_cases h : p = [] <;> simp [h]

theorem components_slashes (k : Nat) (n : Bytes) :
    components (List.replicate k 47 ++ n) = List.replicate k [] ++ components n := by
  induction k with
  | zero => rfl
  | succ k ih =>
    rw [List.replicate_succ, List.cons_append, components, if_pos rfl, ih, List.replicate_succ, List.cons_append]

theorem place_slashes (cwd : List Bytes) (dir n : Bytes) (k : Nat) (hd : dir ≠ []) :
    place cwd (dir ++ List.replicate (k + 1) 47 ++ n) = walk (place cwd dir) (components n) := by
  have hh : (dir ++ List.replicate (k + 1) 47 ++ n).head? = dir.head? := by
    cases dir with
    | nil => exact absurd rfl hd
    | cons c cs => rfl
  unfold place
  rw [hh, List.append_assoc, List.replicate_succ, List.cons_append, components_append, components_slashes,
    walk_append, walk_append, walk_empty]

/-- A path that does not end with a slash leads where the join of its `dirname` and `basename` leads. -/
theorem C25_dirname_basename (p : Bytes) (hp : p ≠ []) (hl : p.getLast? ≠ some 47) (cwd : List Bytes) :
    place cwd (joinpath [dirname p, basename p]) = place cwd p := by
  have hj : ∀ a b, joinpath [a, b] = appendpath a b := by
    intro a b
    simp only [joinpath, List.foldl_cons, List.foldl_nil, (C25_join_empty a).2]
  rw [hj]
  rcases C25_dirname_cases p with rfl | ⟨m, rfl⟩ | ⟨name, m, hn, rfl⟩ | ⟨dir, name, k, m, hd, hn, hk, rfl⟩
  · exact absurd rfl hp
  · exfalso; apply hl; rw [List.replicate_succ']; simp
  · have hm : m = 0 := by
      cases m with
      | zero => rfl
      | succ m => exfalso; apply hl; rw [List.replicate_succ', ← List.append_assoc]; simp
    subst hm
    rw [(C25_dirname_simple name 0 hn).1, List.replicate_zero, List.append_nil, (C25_basename [] name hn.2).2]
    rw [appendpath_names [46] name (by simp) (by simp) hn]
    have e1 := place_slashes cwd [46] name 0 (by simp)
    rw [show [46] ++ List.replicate (0 + 1) 47 ++ name = [46] ++ 47 :: name from rfl] at e1
    rw [e1]
    unfold place
    rw [if_neg (by decide), if_neg]
    · rfl
    · intro e
      exact hn.2 (List.mem_of_mem_head? e)
  · have hm : m = 0 := by
      cases m with
      | zero => rfl
      | succ m => exfalso; apply hl; rw [List.replicate_succ', ← List.append_assoc]; simp
    subst hm
    obtain ⟨j, rfl⟩ : ∃ j, k = j + 1 := ⟨k - 1, by omega⟩
    rw [C25_dirname dir name (j + 1) 0 hd hn (by omega), List.replicate_zero, List.append_nil]
    have hb : basename (dir ++ List.replicate (j + 1) 47 ++ name) = name := by
      rw [show dir ++ List.replicate (j + 1) 47 ++ name = (dir ++ List.replicate j 47) ++ 47 :: name by
        rw [List.replicate_succ']; simp]
      exact (C25_basename _ name hn.2).1
    rw [hb]
    by_cases h0 : dir = []
    · subst h0
      rw [if_pos rfl, List.nil_append]
      have : appendpath [47] name = 47 :: name := by
        unfold appendpath
        rw [if_neg hn.1, if_neg (by simp), if_pos (by rfl), if_neg]
        · rfl
        · cases hx : name with
          | nil => exact absurd hx hn.1
          | cons c cs => intro e; rw [List.getD_cons_zero] at e; exact hn.2 (by rw [hx, e]; simp [slash])
      rw [this]
      unfold place
      rw [if_pos (by rfl), if_pos (by rw [List.replicate_succ]; rfl), components_slashes, walk_append, walk_empty,
        components, if_pos rfl, walk, if_pos (Or.inl rfl)]
    · rw [if_neg h0, appendpath_names dir name h0 hd hn]
      have e1 := place_slashes cwd dir name 0 h0
      have e2 := place_slashes cwd dir name j h0
      rw [e2, ← e1]
      simp

/-- With a slash at the end the last component is in neither of the two. -/
theorem C25_violated_trailing_slash : dirname (str "a/b/") = str "a" ∧ basename (str "a/b/") = [] ∧
    place [] (joinpath [dirname (str "a/b/"), basename (str "a/b/")]) ≠ place [] (str "a/b/") := by
  decide +kernel

/-! ### Normalisation -/

theorem normal_result_relative (names : List Bytes) (h : ∀ n ∈ names, Proper n) (h0 : names ≠ []) :
    names.foldl appendpath [] = joined [47] names := by
  cases names with
  | nil => exact absurd rfl h0
  | cons n ns =>
    have hn := (h n (by simp)).1
    rw [List.foldl_cons, (C25_join_empty n).2,
      foldl_names ns (fun m hm => (h m (List.mem_cons_of_mem _ hm)).1) n hn.1 (name_last n hn)]

theorem normal_result_absolute (names : List Bytes) (h : ∀ n ∈ names, Proper n) :
    ([47] :: names).foldl appendpath [] = 47 :: joined [47] names := by
  rw [List.foldl_cons, (C25_join_empty _).2]
  cases names with
  | nil => rfl
  | cons n ns =>
    have hn := (h n (by simp)).1
    have : appendpath [47] n = 47 :: n := by
      unfold appendpath
      rw [if_neg hn.1, if_neg (by simp), if_pos (by rfl), if_neg]
      · rfl
      · cases hx : n with
        | nil => exact absurd hx hn.1
        | cons c cs => intro e; rw [List.getD_cons_zero] at e; exact hn.2 (by rw [hx, e]; simp [slash])
    rw [List.foldl_cons, this,
      foldl_names ns (fun m hm => (h m (List.mem_cons_of_mem _ hm)).1) (47 :: n) (by simp)]
    · by_cases hx : ns = []
      · subst hx; rfl
      · rw [joined_cons hx, joined_cons hx]; rfl
    · have := name_last n hn
      cases n with
      | nil => exact absurd rfl hn.1
      | cons c cs => rwa [List.getLast?_cons_cons]

theorem components_joined_names (names : List Bytes) (h : ∀ n ∈ names, Proper n) (h0 : names ≠ []) :
    components (joined [47] names) = names := by
  induction names with
  | nil => exact absurd rfl h0
  | cons n ns ih =>
    have hn := (h n (by simp)).1
    by_cases hx : ns = []
    · subst hx; exact components_no_slash n hn.2
    · rw [joined_cons hx, List.append_assoc, List.singleton_append, components_append, components_no_slash n hn.2,
        ih (fun m hm => h m (List.mem_cons_of_mem _ hm)) hx]
      rfl

theorem head_joined_names (names : List Bytes) (h : ∀ n ∈ names, Proper n) : (joined [47] names).head? ≠ some 47 := by
  cases names with
  | nil => simp [joined]
  | cons n ns =>
    have hn := (h n (by simp)).1
    have : (joined [47] (n :: ns)).head? = n.head? := by
      by_cases hx : ns = []
      · subst hx; rfl
      · rw [joined_cons hx]
        cases n with
        | nil => exact absurd rfl hn.1
        | cons c cs => rfl
    rw [this]
    intro e
    exact hn.2 (List.mem_of_mem_head? e)

theorem normpath_absolute (p : Bytes) : ∃ names : List Bytes, normpath (47 :: p) = .ok (47 :: joined [47] names) ∧
    (∀ n ∈ names, Proper n) ∧ walk [] (components (47 :: p)) = names.reverse := by
  obtain ⟨names, h1, h2, h3⟩ := normLoop_absolute (components (47 :: p)) (components_mem _) [] (by simp)
  refine ⟨names.reverse, ?_, fun n hn => h2 n (List.mem_reverse.1 hn), by rw [h3, List.reverse_reverse]⟩
  unfold normpath
  rw [str_slash, str_dot, split_parts (47 :: p) [47] (by simp) (by simp), parts_components]
  rw [List.nil_append] at h1
  dsimp only
  rw [if_pos (show (47 :: p : Bytes).getD 0 0 = slash from rfl)]
  simp only [Outcome.ok_bind, h1]
  rw [if_neg (by simp), List.reverse_append, List.reverse_singleton, List.singleton_append,
    normal_result_absolute _ (fun n hn => h2 n (List.mem_reverse.1 hn))]

theorem normpath_relative (p : Bytes) (hp : p.head? ≠ some 47) :
    (staysBelow 0 (components p) = true → ∃ names : List Bytes, (∀ n ∈ names, Proper n) ∧
      normpath p = .ok (if names = [] then [46] else joined [47] names) ∧
      ∀ cwd, walk cwd (components p) = names.reverse ++ cwd) ∧
    (staysBelow 0 (components p) = false → normpath p = .ub) := by
  by_cases h0 : p = []
  · subst h0
    refine ⟨fun _ => ⟨[], by simp, ?_, fun _ => rfl⟩, fun h => by simp [components, staysBelow] at h⟩
    decide +kernel
  · have hst : (if p.getD 0 0 = slash then [str "/"] else []) = [] := by
      rw [if_neg]
      cases p with
      | nil => exact absurd rfl h0
      | cons c cs => intro e; apply hp; rw [List.getD_cons_zero] at e; rw [e]; rfl
    obtain ⟨g1, g2⟩ := normLoop_relative (components p) (components_mem p) [] (by simp)
    unfold normpath
    rw [hst, str_slash, str_dot, split_parts p [47] (by simp) h0, parts_components]
    simp only [Outcome.ok_bind]
    constructor
    · intro h
      obtain ⟨names, h1, h2, h3⟩ := g1 h
      refine ⟨names.reverse, fun n hn => h2 n (List.mem_reverse.1 hn), ?_, fun cwd => by
        have := h3 cwd; rw [List.nil_append] at this; rw [this, List.reverse_reverse]⟩
      rw [h1]
      simp only [Outcome.ok_bind]
      by_cases hn : names = []
      · subst hn; rfl
      · rw [if_neg hn, if_neg (by simpa using hn), normal_result_relative _ (fun n hm => h2 n (List.mem_reverse.1 hm))
          (by simpa using hn)]
    · intro h
      rw [g2 h]
      rfl

/-- The normal form of a path leads to the same place, from everywhere. -/
theorem C25_normpath_same_place {p q : Bytes} (h : normpath p = .ok q) (cwd : List Bytes) :
    place cwd q = place cwd p := by
  by_cases hp : p.head? = some 47
  · obtain ⟨r, rfl⟩ : ∃ r, p = 47 :: r := by
      cases p with
      | nil => simp at hp
      | cons c cs => simp at hp; exact ⟨cs, by rw [hp]⟩
    obtain ⟨names, h1, h2, h3⟩ := normpath_absolute r
    rw [h1] at h
    cases h
    unfold place
    rw [if_pos (by rfl), if_pos (by rfl), h3, components, if_pos rfl, walk, if_pos (Or.inl rfl)]
    by_cases hn : names = []
    · subst hn; rfl
    · rw [components_joined_names names h2 hn, walk_names [] names h2, List.append_nil]
  · obtain ⟨g1, g2⟩ := normpath_relative p hp
    cases hs : staysBelow 0 (components p) with
    | false => rw [g2 hs] at h; cases h
    | true =>
      obtain ⟨names, h2, h1, h3⟩ := g1 hs
      rw [h1] at h
      cases h
      unfold place
      rw [if_neg hp, h3]
      by_cases hn : names = []
      · subst hn; rfl
      · rw [if_neg hn, if_neg (head_joined_names names h2), components_joined_names names h2 hn, walk_names _ _ h2]

/-- The result is in normal form: no `.`, `..`, empty components or slashes at the end. -/
theorem C25_normpath_normal {p q : Bytes} (h : normpath p = .ok q) : Normal q := by
  by_cases hp : p.head? = some 47
  · obtain ⟨r, rfl⟩ : ∃ r, p = 47 :: r := by
      cases p with
      | nil => simp at hp
      | cons c cs => simp at hp; exact ⟨cs, by rw [hp]⟩
    obtain ⟨names, h1, h2, h3⟩ := normpath_absolute r
    rw [h1] at h
    cases h
    exact .inr ⟨names, h2, .inl rfl⟩
  · obtain ⟨g1, g2⟩ := normpath_relative p hp
    cases hs : staysBelow 0 (components p) with
    | false => rw [g2 hs] at h; cases h
    | true =>
      obtain ⟨names, h2, h1, h3⟩ := g1 hs
      rw [h1] at h
      cases h
      by_cases hn : names = []
      · rw [if_pos hn]; exact .inl rfl
      · rw [if_neg hn]; exact .inr ⟨names, h2, .inr ⟨hn, rfl⟩⟩

/-- A path in normal form is left alone. -/
theorem C25_normpath_of_normal {q : Bytes} (h : Normal q) : normpath q = .ok q := by
  rcases h with rfl | ⟨names, h1, h2⟩
  · decide +kernel
  · have hw : ∀ names : List Bytes, (∀ n ∈ names, Proper n) → ∀ d, staysBelow d names = true := by
      intro names
      induction names with
      | nil => intro _ _; rfl
      | cons n ns ih =>
        intro h d
        obtain ⟨g1, g2, g3⟩ := h n (by simp)
        rw [staysBelow.eq_def]
        simp only
        rw [if_neg (fun e => e.elim g1.1 g2), if_neg g3]
        exact ih (fun m hm => h m (List.mem_cons_of_mem _ hm)) _
    rcases h2 with rfl | ⟨h0, rfl⟩
    · obtain ⟨names', e1, e2, e3⟩ := normpath_absolute (joined [47] names)
      rw [e1]
      have : names' = names := by
        rw [components, if_pos rfl, walk, if_pos (Or.inl rfl)] at e3
        by_cases hn : names = []
        · subst hn
          have : walk [] (components (joined [47] [])) = [] := rfl
          rw [this] at e3
          exact (List.reverse_eq_nil_iff.1 e3.symm)
        · rw [components_joined_names names h1 hn, walk_names [] names h1, List.append_nil] at e3
          exact (List.reverse_inj.1 e3).symm
      rw [this]
    · obtain ⟨g1, _⟩ := normpath_relative (joined [47] names) (head_joined_names names h1)
      rw [components_joined_names names h1 h0] at g1
      obtain ⟨names', e2, e1, e3⟩ := g1 (hw names h1 0)
      rw [e1]
      have : names' = names := by
        have := e3 []
        rw [walk_names [] names h1] at this
        simp only [List.append_nil] at this
        exact (List.reverse_inj.1 this).symm
      rw [this, if_neg h0]

/-- Normalising twice is normalising once. -/
theorem C25_normpath_idempotent {p q : Bytes} (h : normpath p = .ok q) : normpath q = .ok q :=
  C25_normpath_of_normal (C25_normpath_normal h)

/-- Absolute paths are always normalised, relative ones when they never lead above the place they start
from.  Other relative paths are undefined behaviour: the full property does not hold. -/
theorem C25_normpath_defined_partial (p : Bytes) :
    (p.head? = some 47 → ∃ q, normpath p = .ok q) ∧
    (p.head? ≠ some 47 → ((∃ q, normpath p = .ok q) ↔ staysBelow 0 (components p) = true)) := by
  constructor
  · intro hp
    obtain ⟨r, rfl⟩ : ∃ r, p = 47 :: r := by
      cases p with
      | nil => simp at hp
      | cons c cs => simp at hp; exact ⟨cs, by rw [hp]⟩
    obtain ⟨names, h1, _⟩ := normpath_absolute r
    exact ⟨_, h1⟩
  · intro hp
    obtain ⟨g1, g2⟩ := normpath_relative p hp
    cases hs : staysBelow 0 (components p) with
    | false => rw [g2 hs]; simp
    | true =>
      obtain ⟨names, _, h1, _⟩ := g1 hs
      simp [h1]

/-- A path that leads above its start is undefined behaviour (`back()` of an empty vector). -/
theorem C25_violated_leading_dots : normpath (str "../a") = .ub ∧ normpath (str "a/../../b") = .ub := by
  decide +kernel

example : normpath (str "A//B/./C/foo/../D/") = .ok (str "A/B/C/D") := by decide +kernel
example : normpath (str "/../a/") = .ok (str "/a") := by decide +kernel
example : dirname (str "/a//b/") = str "/a" ∧ basename (str "/a//b") = str "b" := by decide +kernel
example : joinpath [str "a/", str "/b", str "c"] = str "a/b/c" := by decide +kernel
example : Proper (str "abc") := ⟨⟨by decide, by decide⟩, by decide, by decide⟩

end Msat.Props
