import Verif.Lemmas.Files
import Verif.Props.C21

/-
C104 Files, links and directories.
-/
namespace Msat.Props
open Msat Files FilesSpec

/-! ### Questions -/

/-- A path leads to at most one file, and then nothing is missing on the way. -/
theorem C104_one (fs : FS) (d : Ino) (follow : Bool) (p : Bytes) (j : Ino) (h : At fs d follow p j) :
    (∀ i, At fs d follow p i → i = j) ∧ ¬ Absent fs d follow p ∧ ¬ Wall fs d follow p := by
  rw [← resolve_ok] at h
  refine ⟨fun i hi => ?_, fun ha => ?_, fun ha => ?_⟩
  · rw [← resolve_ok, h] at hi; injection hi with hi; exact hi.symm
  · rw [← resolve_enoent, h] at ha; cases ha
  · rw [← resolve_enotdir, h] at ha; cases ha

theorem test_answers (P : Ino → Prop) (p : Kind → Bool) (fs : FS) (path : Bytes) (hP : ∀ i, p (fs.node i).kind = true ↔ P i) :
    Answers fs path (test p fs path) P := by
  unfold test
  refine ⟨⟨fun h => ?_, ?_⟩, fun j hj hn => ?_, fun ha => ?_⟩
  · cases hr : resolve fs fs.cwd true path with
    | ok i =>
      rw [hr] at h
      dsimp only at h
      injection h with h
      exact ⟨i, resolve_ok.1 hr, (hP i).1 h⟩
    | error e => rw [hr] at h; cases e <;> cases h
  · rintro ⟨j, hj, h⟩
    rw [resolve_ok.2 hj]
    dsimp only
    rw [(hP j).2 h]
  · rw [resolve_ok.2 hj]
    dsimp only
    have : p (fs.node j).kind = false := by rw [← Bool.not_eq_true, hP]; exact hn
    rw [this]
  · rw [resolve_enoent.2 ha]

/-- The questions what a file is, links being followed, are answered for every path. -/
theorem C104_questions (fs : FS) (path : Bytes) :
    Answers fs path (isdir fs path) fs.isDir ∧
    Answers fs path (isreg fs path) (fun i => (fs.node i).kind = .reg) ∧
    Answers fs path (isblk fs path) (fun i => (fs.node i).kind = .blk) ∧
    Answers fs path (ischr fs path) (fun i => (fs.node i).kind = .chr) ∧
    Answers fs path (isfifo fs path) (fun i => (fs.node i).kind = .fifo) ∧
    Answers fs path (issock fs path) (fun i => (fs.node i).kind = .sock) := by
  refine ⟨test_answers _ _ fs path fun i => ?_, test_answers _ _ fs path fun i => ?_, test_answers _ _ fs path fun i => ?_,
    test_answers _ _ fs path fun i => ?_, test_answers _ _ fs path fun i => ?_, test_answers _ _ fs path fun i => ?_⟩
  · unfold S_ISDIR FS.isDir; cases (fs.node i).kind <;> simp
  · unfold S_ISREG; cases (fs.node i).kind <;> simp
  · unfold S_ISBLK; cases (fs.node i).kind <;> simp
  · unfold S_ISCHR; cases (fs.node i).kind <;> simp
  · unfold S_ISFIFO; cases (fs.node i).kind <;> simp
  · unfold S_ISSOCK; cases (fs.node i).kind <;> simp

/-- `exists`: yes exactly if the path leads to something; no if a name is missing or if the way leads through a file. -/
theorem C104_exists (fs : FS) (path : Bytes) :
    (exists_ fs path = .ok true ↔ ∃ j, At fs fs.cwd true path j) ∧
    (exists_ fs path = .ok false ↔ Absent fs fs.cwd true path ∨ Wall fs fs.cwd true path) := by
  rw [← resolve_enoent, ← resolve_enotdir]
  simp only [← resolve_ok]
  unfold exists_
  cases resolve fs fs.cwd true path with
  | ok i => simp
  | error e => cases e <;> simp

/-- `stat` finds the file of the path, and gives nothing exactly if a name is missing. -/
theorem C104_stat (fs : FS) (path : Bytes) :
    (∀ j, Files.stat fs path = .ok (some j) ↔ At fs fs.cwd true path j) ∧ (Files.stat fs path = .ok none ↔ Absent fs fs.cwd true path) := by
  rw [← resolve_enoent]
  simp only [← resolve_ok]
  unfold Files.stat ifExists
  cases resolve fs fs.cwd true path with
  | ok i => simp
  | error e => cases e <;> simp

/-- Time, size and number of the file of a path. -/
theorem C104_values (fs : FS) (path : Bytes) (j : Ino) (h : At fs fs.cwd true path j) (t : Int) (n : Nat) (i : Ino) :
    timestamp fs path = .ok (fs.node j).mtime ∧ timestampOr fs path t = .ok (fs.node j).mtime ∧
    Files.size fs path = .ok (fs.node j).size ∧ sizeOr fs path n = .ok (fs.node j).size ∧
    inode fs path = .ok j ∧ inodeOr fs path i = .ok j := by
  unfold timestamp timestampOr Files.size sizeOr inode inodeOr Files.stat
  rw [resolve_ok.2 h]
  exact ⟨rfl, rfl, rfl, rfl, rfl, rfl⟩

/-- If there is no such file the default is given, or, without a default, an exception is thrown. -/
theorem C104_defaults (fs : FS) (path : Bytes) (h : Absent fs fs.cwd true path) (t : Int) (n : Nat) (i : Ino) :
    timestampOr fs path t = .ok t ∧ sizeOr fs path n = .ok n ∧ inodeOr fs path i = .ok i ∧
    timestamp fs path = .throws systemError ∧ Files.size fs path = .throws systemError ∧ inode fs path = .throws systemError := by
  unfold timestamp timestampOr Files.size sizeOr inode inodeOr Files.stat
  rw [resolve_enoent.2 h]
  exact ⟨rfl, rfl, rfl, rfl, rfl, rfl⟩

/-- Names relative to an open directory, with links followed or not. -/
theorem C104_relative (fs : FS) (d : Ino) (path : Bytes) (j : Ino) :
    (fstatat fs d path = .ok j ↔ At fs d true path j) ∧ (lstatat fs d path = .ok j ↔ At fs d false path j) ∧
    (fstatatIfExists fs d path = .ok (some j) ↔ At fs d true path j) ∧ (fstatatIfExists fs d path = .ok none ↔ Absent fs d true path) ∧
    (lstatatIfExists fs d path = .ok (some j) ↔ At fs d false path j) ∧ (lstatatIfExists fs d path = .ok none ↔ Absent fs d false path) ∧
    (openatIfExists fs d path = .ok (some j) ↔ At fs d true path j) ∧ (openatIfExists fs d path = .ok none ↔ Absent fs d true path) := by
  have one : ∀ r : Except Errno Ino, orThrow r = .ok j ↔ r = .ok j := by
    intro r; unfold orThrow; cases r <;> simp
  have two : ∀ r : Except Errno Ino, ifExists r = .ok (some j) ↔ r = .ok j := by
    intro r; unfold ifExists; cases r with
    | ok i => simp
    | error e => cases e <;> simp
  have three : ∀ r : Except Errno Ino, ifExists r = .ok none ↔ r = .error .enoent := by
    intro r; unfold ifExists; cases r with
    | ok i => simp
    | error e => cases e <;> simp
  unfold fstatat lstatat fstatatIfExists lstatatIfExists openatIfExists
  simp only [one, two, three, resolve_ok, resolve_enoent]
  exact ⟨trivial, trivial, trivial, trivial, trivial, trivial, trivial, trivial⟩

/-! ### Links -/

theorem readlink_all (t : Bytes) (n : Nat) (size : Nat) (h : 0 < size) (hn : t.length + 1 - size ≤ n) : readlinkLoop t size h = t := by
  induction n generalizing size with
  | zero =>
    rw [readlinkLoop, if_pos (by rw [List.length_take]; omega)]
    exact List.take_of_length_le (by omega)
  | succ n ih =>
    rw [readlinkLoop]
    split
    · rename_i hl
      rw [List.length_take] at hl
      exact List.take_of_length_le (by omega)
    · exact ih (2 * size) (by omega) (by omega)

/-- `readlinkat` gives the whole target of a link, however long it is, and throws for everything else. -/
theorem C104_readlink (fs : FS) (d : Ino) (path : Bytes) (t : Bytes) :
    readlinkat fs d path = .ok t ↔ ∃ j, At fs d false path j ∧ fs.Target j t := by
  unfold readlinkat
  constructor
  · intro h
    cases hr : resolve fs d false path with
    | error e => rw [hr] at h; cases h
    | ok i =>
      rw [hr] at h
      refine ⟨i, resolve_ok.1 hr, ?_⟩
      have : orThrow (Except.ok i : Except Errno Ino) = .ok i := rfl
      rw [this, Outcome.ok_bind] at h
      split at h
      · rename_i c cs hk
        rw [readlink_all _ _ _ _ (Nat.le_refl _)] at h
        injection h with h
        exact ⟨c, cs, h.symm, hk⟩
      · cases h
  · rintro ⟨j, hj, c, cs, rfl, hk⟩
    rw [resolve_ok.2 hj]
    have : orThrow (Except.ok j : Except Errno Ino) = .ok j := rfl
    rw [this, Outcome.ok_bind, hk]
    dsimp only
    rw [readlink_all _ _ _ _ (Nat.le_refl _)]
    rfl

/-- Discrepancy: `islnk` is never true, not even for links, because it asks about the file the link leads to. -/
theorem C104_violated_islnk (fs : FS) (path : Bytes) : islnk fs path ≠ .ok true := by
  intro h
  obtain ⟨j, hj, h⟩ := (test_answers (fun i => S_ISLNK (fs.node i).kind = true) S_ISLNK fs path fun i => Iff.rfl).1.1 h
  unfold S_ISLNK at h
  split at h
  · rename_i c cs hk
    exact at_no_link hj (c :: cs) ⟨c, cs, rfl, hk⟩
  · cases h

/-- Discrepancy: when the way leads through something that is not a directory there is nothing at the path, and `exists` says so, but
the other questions throw, also those with a default and those for files that may be missing. -/
theorem C104_violated_wall (fs : FS) (path : Bytes) (h : Wall fs fs.cwd true path) (t : Int) (n : Nat) (i : Ino) :
    exists_ fs path = .ok false ∧ isdir fs path = .throws systemError ∧ isreg fs path = .throws systemError ∧
    Files.stat fs path = .throws systemError ∧ timestampOr fs path t = .throws systemError ∧ sizeOr fs path n = .throws systemError ∧
    inodeOr fs path i = .throws systemError ∧ openatIfExists fs fs.cwd path = .throws systemError := by
  unfold exists_ isdir isreg test timestampOr sizeOr inodeOr openatIfExists Files.stat
  rw [resolve_enotdir.2 h]
  exact ⟨rfl, rfl, rfl, rfl, rfl, rfl, rfl, rfl⟩

/-- Discrepancy: for a link that leads to itself `exists` throws. -/
theorem C104_violated_loop (fs : FS) (name : Bytes) (i : Ino) (hn : name ≠ []) (hs : 47 ∉ name) (he : fs.Entry fs.cwd name i)
    (ht : fs.Target i name) : exists_ fs name = .throws "std::filesystem::filesystem_error" := by
  have hnm : names name = [name] := by
    have := names_word name [] hn hs (.inl rfl)
    rw [List.append_nil] at this
    rw [this]
    rfl
  have hst : ∀ d, fs.start d name = d := by
    intro d
    refine if_neg fun h => hs ?_
    cases name with
    | nil => cases h
    | cons c cs => simp at h; simp [h]
  have : ∀ k, walk fs true k fs.cwd [name] = .error .eloop := by
    intro k
    induction k with
    | zero => exact walk_loop fs true fs.cwd i name name [] he ht (by simp)
    | succ k ih =>
      rw [walk_link fs true k fs.cwd i name name [] he ht (by simp), hst, hnm]
      exact ih
  unfold exists_ resolve
  rw [if_neg hn, hst, hnm, this]

/-! ### Removing -/

/-- `unlink_ifexists` is true exactly if the path is the place of something that is not a directory. -/
theorem C104_unlink_when (fs : FS) (path : Bytes) :
    (unlinkIfExists fs path).1 = .ok true ↔ ∃ d w i, Place fs path d w ∧ fs.Entry d w i ∧ ¬ fs.isDir i := by
  unfold unlinkIfExists sysUnlink
  constructor
  · intro h
    cases hp : parent fs path with
    | error e => rw [hp] at h; cases e <;> cases h
    | ok dw =>
      obtain ⟨d, w⟩ := dw
      rw [hp] at h
      dsimp only at h
      cases he : entry fs d w with
      | error e => rw [he] at h; cases e <;> cases h
      | ok i =>
        rw [he] at h
        dsimp only at h
        by_cases hd : isDir fs i = true
        · rw [if_pos hd] at h; cases h
        · exact ⟨d, w, i, parent_ok.1 hp, entry_ok.1 he, fun h => hd (isDir_iff.2 h)⟩
  · rintro ⟨d, w, i, hp, he, hd⟩
    rw [parent_ok.2 hp]
    dsimp only
    rw [entry_ok.2 he]
    dsimp only
    rw [if_neg (fun h => hd (isDir_iff.1 h))]
    rfl

/-- Then exactly this one name is removed: a link, not what it leads to; every other name of the directory, and every other directory,
stays. -/
theorem C104_unlink (fs : FS) (path : Bytes) (d : Ino) (w : Bytes) (i : Ino) (hp : Place fs path d w) (he : fs.Entry d w i) (hd : ¬ fs.isDir i) :
    ∃ fs', unlinkIfExists fs path = (.ok true, fs') ∧ fs.SameBut fs' d ∧ fs'.NoEntry d w ∧ ∀ v j, v ≠ w → (fs'.Entry d v j ↔ fs.Entry d v j) := by
  refine ⟨update fs d fun es => es.filter (·.1 ≠ w), ?_, ?_⟩
  · unfold unlinkIfExists sysUnlink
    rw [parent_ok.2 hp]
    dsimp only
    rw [entry_ok.2 he]
    dsimp only
    rw [if_neg (fun h => hd (isDir_iff.1 h))]
    rfl
  · obtain ⟨es, hes, hl⟩ := he
    have hu := update_entries fs d (fun es => es.filter (·.1 ≠ w)) es hes
    refine ⟨update_sameBut fs d _ (entries_dir hes), ⟨_, hu, ?_⟩, fun v j hv => ?_⟩
    · rw [lookup_filter, if_pos rfl]
    · constructor
      · rintro ⟨es', h1, h2⟩
        rw [hu] at h1
        injection h1 with h1
        subst h1
        rw [lookup_filter, if_neg hv] at h2
        exact ⟨es, hes, h2⟩
      · rintro ⟨es', h1, h2⟩
        rw [hes] at h1
        injection h1 with h1
        subst h1
        exact ⟨_, hu, by rw [lookup_filter, if_neg hv]; exact h2⟩

/-- It is false exactly if there is nothing at the path, links not being followed; and whenever it is not true nothing is changed. -/
theorem C104_unlink_missing (fs : FS) (path : Bytes) :
    ((unlinkIfExists fs path).1 = .ok false ↔ Absent fs fs.cwd false path) ∧
    ((unlinkIfExists fs path).1 ≠ .ok true → (unlinkIfExists fs path).2 = fs) := by
  rw [← resolve_enoent, resolve_parent]
  unfold unlinkIfExists sysUnlink
  cases parent fs path with
  | error e => cases e <;> simp [changed]
  | ok dw =>
    obtain ⟨d, w⟩ := dw
    dsimp only
    cases entry fs d w with
    | error e => cases e <;> simp [changed]
    | ok i => by_cases hd : isDir fs i = true <;> simp [hd, changed]

/-! ### Renaming -/

section
variable (moveDir : FS → Ino × Bytes → Ino × Bytes → Except Errno FS)

/-- Something that is not a directory gets its new name, in the place of what had it, and loses the old one; no other name changes. -/
theorem C104_rename (fs : FS) (src dst : Bytes) (d d' : Ino) (w w' : Bytes) (i : Ino) (hp : Place fs src d w) (hp' : Place fs dst d' w')
    (hw : w ≠ str "." ∧ w ≠ str "..") (hw' : w' ≠ str "." ∧ w' ≠ str "..") (he : fs.Entry d w i) (hd : ¬ fs.isDir i)
    (he' : fs.NoEntry d' w' ∨ ∃ j, fs.Entry d' w' j ∧ j ≠ i ∧ ¬ fs.isDir j) :
    ∃ fs', renameIfExists moveDir fs src dst = (.ok true, fs') ∧ (∀ k, fs'.Entry d' w' k ↔ k = i) ∧
      (∀ e v k, (e, v) ≠ (d', w') → (fs'.Entry e v k ↔ fs.Entry e v k ∧ (e, v) ≠ (d, w))) ∧
      ∀ k, k ≠ d → k ≠ d' → fs'.node k = fs.node k := by
  refine ⟨update (update fs d fun es => es.filter (·.1 ≠ w)) d' fun es => (w', i) :: es.filter (·.1 ≠ w'), ?_, ?_⟩
  · unfold renameIfExists sysRename
    rw [parent_ok.2 hp]
    dsimp only
    rw [parent_ok.2 hp']
    dsimp only
    rw [if_neg (by rintro (h | h | h | h); exacts [hw.1 h, hw.2 h, hw'.1 h, hw'.2 h]), entry_ok.2 he]
    dsimp only
    rw [if_neg (fun h => hd (isDir_iff.1 h))]
    rcases he' with he' | ⟨j, he', hj, hjd⟩
    · rw [entry_enoent.2 he']; rfl
    · rw [entry_ok.2 he']
      dsimp only
      rw [if_neg hj, if_neg (fun h => hjd (isDir_iff.1 h))]
      rfl
  · obtain ⟨es, hes, hl⟩ := he
    have hes' : ∃ es', fs.entries d' = some es' := by
      rcases he' with ⟨es', h, _⟩ | ⟨j, ⟨es', h, _⟩, _⟩ <;> exact ⟨es', h⟩
    obtain ⟨es', hes'⟩ := hes'
    have hu := update_entries fs d (fun es => es.filter (·.1 ≠ w)) es hes
    -- what the directories are after the first step
    have hmid : ∀ e v, ((update fs d fun es => es.filter (·.1 ≠ w)).entries e).bind (·.lookup v) =
        if (e, v) = (d, w) then none else (fs.entries e).bind (·.lookup v) := by
      intro e v
      by_cases hed : e = d
      · subst hed
        rw [hu, hes, Option.bind_some, Option.bind_some, lookup_filter]
        by_cases hv : v = w <;> simp [hv]
      · rw [entries_other fs d e _ hed, if_neg (by intro h; injection h with h; exact hed h)]
    have hmid' : ∃ es'', (update fs d fun es => es.filter (·.1 ≠ w)).entries d' = some es'' := by
      by_cases hed : d' = d
      · subst hed; exact ⟨_, hu⟩
      · rw [entries_other fs d d' _ hed]; exact ⟨_, hes'⟩
    obtain ⟨es'', hmid'⟩ := hmid'
    have hu' := update_entries _ d' (fun es => (w', i) :: es.filter (·.1 ≠ w')) es'' hmid'
    have hlk : ∀ e v, ((update (update fs d fun es => es.filter (·.1 ≠ w)) d' fun es => (w', i) :: es.filter (·.1 ≠ w')).entries e).bind (·.lookup v) =
        if (e, v) = (d', w') then some i else if (e, v) = (d, w) then none else (fs.entries e).bind (·.lookup v) := by
      intro e v
      rw [← hmid e v]
      by_cases hed : e = d'
      · subst hed
        rw [hu', hmid', Option.bind_some, Option.bind_some, List.lookup_cons, lookup_filter]
        by_cases hv : v = w'
        · simp [hv]
        · have : (v == w') = false := by simpa using hv
          rw [this]
          simp [hv]
      · rw [entries_other _ d' e _ hed, if_neg (by intro h; injection h with h; exact hed h)]
    have hE : ∀ (f : FS) (e : Ino) (v : Bytes) (k : Ino), f.Entry e v k ↔ (f.entries e).bind (·.lookup v) = some k := by
      intro f e v k
      unfold FS.Entry
      cases f.entries e <;> simp
    refine ⟨fun k => ?_, fun e v k hne => ?_, fun k h1 h2 => ?_⟩
    · rw [hE, hlk, if_pos rfl]
      exact ⟨fun h => by injection h with h; exact h.symm, fun h => by rw [h]⟩
    · rw [hE, hlk, if_neg hne, hE]
      by_cases hdw : (e, v) = (d, w)
      · rw [if_pos hdw]; simp [hdw]
      · rw [if_neg hdw]; simp [hdw]
    · rw [update_node _ d' _ k h2, update_node _ d _ k h1]

/-- If there is nothing to rename, and the new place exists, the answer is false; whenever it is not true nothing is changed. -/
theorem C104_rename_missing (fs : FS) (src dst : Bytes) :
    (∀ d w d' w', Place fs src d w → Place fs dst d' w' → w ≠ str "." → w ≠ str ".." → w' ≠ str "." → w' ≠ str ".." → fs.NoEntry d w →
      renameIfExists moveDir fs src dst = (.ok false, fs)) ∧
    ((renameIfExists moveDir fs src dst).1 ≠ .ok true → (renameIfExists moveDir fs src dst).2 = fs) := by
  constructor
  · intro d w d' w' hp hp' h1 h2 h3 h4 hn
    unfold renameIfExists sysRename
    rw [parent_ok.2 hp]
    dsimp only
    rw [parent_ok.2 hp']
    dsimp only
    rw [if_neg (by rintro (h | h | h | h); exacts [h1 h, h2 h, h3 h, h4 h]), entry_enoent.2 hn]
    rfl
  · unfold renameIfExists changed
    intro h
    split
    · rename_i fs' hr
      rw [hr] at h
      exact absurd rfl h
    · rfl
    · rfl

/-- Discrepancy: `rename_ifexists` also says that there is no source, by returning false, when the source exists and it is the directory
of the destination that does not. -/
theorem C104_violated_rename_destination (fs : FS) (src dst : Bytes) (d : Ino) (w : Bytes) (hp : Place fs src d w)
    (ws vs : List Bytes) (w' v : Bytes) (n : Nat) (j : Ino) (hr : Reads (ws ++ [w']) dst) (hn : n ≤ maxLinks)
    (hw : Walk fs true n (fs.start fs.cwd dst) ws j (v :: vs)) (hj : fs.NoEntry j v) : renameIfExists moveDir fs src dst = (.ok false, fs) := by
  have : parent fs dst = .error .enoent := by
    unfold parent
    rw [← reads_unique hr]
    simp only [List.getLast?_append, List.getLast?_singleton, Option.some_or, List.dropLast_concat]
    rw [(walk_fails (by simp)).2 ⟨n, j, v, vs, hn, hw, entry_enoent.2 hj⟩]
    rfl
  unfold renameIfExists sysRename
  rw [parent_ok.2 hp]
  dsimp only
  rw [this]
  rfl

/-- Discrepancy: if both are names of the same file the answer is true although nothing is renamed: both names stay. -/
theorem C104_violated_rename_same (fs : FS) (src dst : Bytes) (d d' : Ino) (w w' : Bytes) (i : Ino) (hp : Place fs src d w) (hp' : Place fs dst d' w')
    (hw : w ≠ str "." ∧ w ≠ str "..") (hw' : w' ≠ str "." ∧ w' ≠ str "..") (he : fs.Entry d w i) (he' : fs.Entry d' w' i) (hd : ¬ fs.isDir i) :
    renameIfExists moveDir fs src dst = (.ok true, fs) := by
  unfold renameIfExists sysRename
  rw [parent_ok.2 hp]
  dsimp only
  rw [parent_ok.2 hp']
  dsimp only
  rw [if_neg (by rintro (h | h | h | h); exacts [hw.1 h, hw.2 h, hw'.1 h, hw'.2 h]), entry_ok.2 he]
  dsimp only
  rw [if_neg (fun h => hd (isDir_iff.1 h)), entry_ok.2 he']
  dsimp only
  rw [if_pos rfl]
  rfl

end

/-! ### Reading directories -/

theorem visit_all (fails : Bool) (fds : Fds) (e : Dirent) (es : List Dirent) : visit (fds + 1) e ⟨es, fails⟩ =
    (if fails then .throws systemError else .ok (e :: es), fds) := by
  induction es generalizing e with
  | nil =>
    rw [visit]
    have : advance ⟨[], fails⟩ (fds + 1) = if fails then (.throws systemError, fds + 1) else (.ok none, fds) := rfl
    split
    · rename_i h; rw [this] at h; cases fails <;> cases h
    · rename_i h; rw [this] at h; cases fails <;> cases h; rfl
    · rename_i h; rw [this] at h; cases fails <;> cases h; rfl
    · rename_i h1 h2 h3 h
      rw [this] at h
      cases fails
      · injection h with h _; exact absurd h.symm (h2)
      · injection h with h _; exact absurd h.symm (h3 _)
  | cons x xs ih =>
    rw [visit]
    have : advance ⟨x :: xs, fails⟩ (fds + 1) = (.ok (some (x, ⟨xs, fails⟩)), fds + 1) := rfl
    split
    · rename_i e' s' fds' h
      rw [this] at h
      injection h with h1 h2
      injection h1 with h1
      injection h1 with h1
      injection h1 with h1 h3
      subst h1 h2 h3
      rw [ih]
      cases fails <;> rfl
    · rename_i h; rw [this] at h; cases h
    · rename_i h; rw [this] at h; cases h
    · rename_i h1 h2 h3 h
      rw [this] at h
      injection h with h _
      exact absurd h.symm (h1 _ _)

/-- A loop over a directory sees every entry once, in the order of the system, and leaves no file descriptor open; an error while
reading, after at least one entry, is thrown. -/
theorem C104_entries (es : List Dirent) (fds : Fds) :
    forEach true true ⟨es, false⟩ fds = (.ok es, fds) ∧ (es ≠ [] → forEach true true ⟨es, true⟩ fds = (.throws systemError, fds)) := by
  cases es with
  | nil => exact ⟨rfl, fun h => absurd rfl h⟩
  | cons e es =>
    have : ∀ fails, forEach true true ⟨e :: es, fails⟩ fds = visit (fds + 1) e ⟨es, fails⟩ := fun _ => rfl
    exact ⟨by rw [this, visit_all]; rfl, fun _ => by rw [this, visit_all]; rfl⟩

/-- Discrepancy: when the first reading fails, or the stream cannot be opened, the file descriptor stays open. -/
theorem C104_violated_leak (s : Stream) (fds : Fds) :
    forEach true true ⟨[], true⟩ fds = (.throws systemError, fds + 1) ∧ forEach true false s fds = (.throws systemError, fds + 1) :=
  ⟨rfl, rfl⟩

/-- Discrepancy: iterators at different entries that are names of the same file are equal. -/
theorem C104_violated_equal (a b : Dirent) (s t : Stream) (h : a.ino = b.ino) : same (some (a, s)) (some (b, t)) = true := by
  unfold same
  simp [h]

/-- The type of an entry: if the system tells the types of entries, or the entry is not a link. -/
theorem C104_entry_type_partial (fs : FS) (d : Ino) (e : Dirent) (i : Ino) (p : Kind → Bool) (hn : e.name ≠ []) (hs : 47 ∉ e.name)
    (he : fs.Entry d e.name i) (hk : e.dtype = some (fs.node i).kind ∨ e.dtype = none ∧ ∀ t, ¬ fs.Target i t) :
    entryIs p fs d e = .ok (p (fs.node i).kind) := by
  unfold entryIs
  rcases hk with hk | ⟨hk, hl⟩
  · rw [hk]
  · rw [hk]
    have hnm : names e.name = [e.name] := by
      have := names_word e.name [] hn hs (.inl rfl)
      rw [List.append_nil] at this
      rw [this]
      rfl
    have hst : fs.start d e.name = d := by
      refine if_neg fun h => hs ?_
      cases hh : e.name with
      | nil => exact absurd hh hn
      | cons c cs => rw [hh] at h; simp at h; simp [h]
    have : fstatat fs d e.name = .ok i := by
      unfold fstatat resolve
      rw [if_neg hn, hst, hnm, walk_name fs true _ d i _ _ he (.inl hl), walk_nil]
      rfl
    dsimp only
    rw [this]
    rfl

/-- Discrepancy: if the system does not tell the types of entries, a link is never said to be a link: what is asked about is the file it
leads to, and if there is none an exception is thrown. -/
theorem C104_violated_entry_link (fs : FS) (d : Ino) (e : Dirent) (hk : e.dtype = none) :
    entryIs S_ISLNK fs d e ≠ .ok true ∧ (Absent fs d true e.name → ∀ p, entryIs p fs d e = .throws systemError) := by
  unfold entryIs fstatat
  rw [hk]
  dsimp only
  constructor
  · intro h
    cases hr : resolve fs d true e.name with
    | error x => rw [hr] at h; cases h
    | ok j =>
      rw [hr] at h
      have : orThrow (Except.ok j : Except Errno Ino) = .ok j := rfl
      rw [this, Outcome.ok_bind] at h
      injection h with h
      unfold S_ISLNK at h
      split at h
      · rename_i c cs hk
        exact at_no_link (resolve_ok.1 hr) (c :: cs) ⟨c, cs, rfl, hk⟩
      · cases h
  · intro ha p
    rw [resolve_enoent.2 ha]
    rfl

/-! ### Programs -/

theorem access_runs (fs : FS) (p : Bytes) : accessX fs p = true ↔ Runs fs p := by
  unfold accessX Runs
  simp only [← resolve_ok]
  cases resolve fs fs.cwd true p <;> simp

theorem search_first (fs : FS) (cwd name : Bytes) (pre post : List Bytes) (d : Bytes) (hpre : ∀ x ∈ pre, accessX fs (slash x name) = false)
    (hd : accessX fs (slash d name) = true) : search fs cwd name (pre ++ d :: post) = absolute cwd (slash d name) := by
  induction pre with
  | nil => rw [List.nil_append, search, if_pos hd]
  | cons x xs ih =>
    rw [List.cons_append, search, if_neg (by rw [hpre x (by simp)]; simp)]
    exact ih fun y hy => hpre y (by simp [hy])

theorem search_none (fs : FS) (cwd name : Bytes) (ds : List Bytes) (h : ∀ x ∈ ds, accessX fs (slash x name) = false) :
    search fs cwd name ds = name := by
  induction ds with
  | nil => rfl
  | cons x xs ih =>
    rw [search, if_neg (by rw [h x (by simp)]; simp)]
    exact ih fun y hy => h y (by simp [hy])

theorem slash_under {d : Bytes} (h : d ≠ []) (name : Bytes) : slash d name = under d name := by
  unfold slash under
  rw [if_neg h]

/-- `which` gives the first program of the name in the directories of PATH: as it stands if the directory is absolute, otherwise below
the current directory. -/
theorem C104_which (fs : FS) (cwd path name : Bytes) (ps pre post : List Bytes) (d : Bytes) (hc : cwd ≠ []) (hn : 47 ∉ name)
    (hps : StrSpec.IsSplit [58] path ps) (hds : ps.filter (· ≠ []) = pre ++ d :: post) (hpre : ∀ x ∈ pre, ¬ Runs fs (under x name))
    (hd : Runs fs (under d name)) :
    which fs cwd (some path) name = .ok (if d.head? = some 47 then under d name else under cwd (under d name)) := by
  have hne : ∀ x, x ∈ pre ++ d :: post → x ≠ [] := by
    intro x hx
    rw [← hds] at hx
    simpa using (List.mem_filter.1 hx).2
  have hdm : d ∈ ps ∧ d ≠ [] := by
    have : d ∈ pre ++ d :: post := by simp
    refine ⟨?_, hne d this⟩
    rw [← hds] at this
    exact (List.mem_filter.1 this).1
  unfold which
  rw [if_neg hn]
  dsimp only
  rw [C21_skip_empty_partial path [58] (by simp) ps hps ⟨d, hdm⟩, Outcome.ok_bind, hds,
    search_first fs cwd name pre post d (fun x hx => ?_) (by rw [slash_under hdm.2]; exact (access_runs fs _).2 hd), slash_under hdm.2]
  · unfold absolute
    have hh : (under d name).head? = d.head? := by
      unfold under
      obtain ⟨c, cs, rfl⟩ := List.exists_cons_of_ne_nil hdm.2
      split <;> rfl
    rw [hh, slash_under hc]
    rfl
  · rw [slash_under (hne x (by simp [hx])), ← Bool.not_eq_true, access_runs]
    exact hpre x hx

/-- A name with a slash is a path, which is made absolute. -/
theorem C104_which_path (fs : FS) (cwd name : Bytes) (path : Option Bytes) (hc : cwd ≠ []) (hn : 47 ∈ name) :
    which fs cwd path name = .ok (if name.head? = some 47 then name else under cwd name) := by
  unfold which absolute
  rw [if_pos hn, slash_under hc]

/-- Discrepancy: if no program of the name is found the name itself is given, as if it were a path. -/
theorem C104_violated_which_not_found (fs : FS) (cwd path name : Bytes) (ps : List Bytes) (hn : 47 ∉ name)
    (hps : StrSpec.IsSplit [58] path ps) (hne : ∃ p ∈ ps, p ≠ []) (h : ∀ x ∈ ps, x ≠ [] → ¬ Runs fs (under x name)) :
    which fs cwd (some path) name = .ok name ∧ which fs cwd none name = .ok name := by
  unfold which
  rw [if_neg hn, if_neg hn]
  dsimp only
  rw [C21_skip_empty_partial path [58] (by simp) ps hps hne, Outcome.ok_bind, search_none]
  · exact ⟨rfl, rfl⟩
  · intro x hx
    obtain ⟨h1, h2⟩ := List.mem_filter.1 hx
    have h2 : x ≠ [] := by simpa using h2
    rw [slash_under h2, ← Bool.not_eq_true, access_runs]
    exact h x h1 h2

theorem reads_suffix (s : Bytes) (hs : 47 ∉ s) (ws : List Bytes) (p : Bytes) (h : Reads ws p) :
    p ≠ [] → p.getLast? ≠ some 47 → ∃ vs v, ws = vs ++ [v] ∧ Reads (vs ++ [v ++ s]) (p ++ s) := by
  induction h with
  | nothing => intro h; exact absurd rfl h
  | slashes p h0 hall =>
    intro _ hl
    refine absurd ?_ hl
    rw [List.getLast?_eq_some_getLast h0, hall _ (List.getLast_mem h0)]
  | slash ws p hp _ ih =>
    intro _ hl
    obtain ⟨c, hc, hc'⟩ := hp
    have h0 : p ≠ [] := by rintro rfl; cases hc
    obtain ⟨vs, v, h1, h2⟩ := ih h0 (by
      obtain ⟨x, xs, rfl⟩ := List.exists_cons_of_ne_nil h0
      rw [List.getLast?_cons_cons] at hl
      exact hl)
    exact ⟨vs, v, h1, .slash _ _ ⟨c, by simp [hc], hc'⟩ h2⟩
  | name w ws p h0 hw hp hr ih =>
    intro _ hl
    by_cases hp0 : p = []
    · subst hp0
      have : ws = [] := reads_unique hr
      subst this
      refine ⟨[], w, rfl, ?_⟩
      have := Reads.name (w ++ s) [] [] (by simp [h0]) (by simp [hw, hs]) (.inl rfl) .nothing
      simpa using this
    · obtain ⟨vs, v, h1, h2⟩ := ih hp0 (by
        rw [List.getLast?_append, List.getLast?_eq_some_getLast hp0, Option.some_or] at hl
        rw [List.getLast?_eq_some_getLast hp0]
        exact hl)
      refine ⟨w :: vs, v, by rw [h1]; rfl, ?_⟩
      rw [List.append_assoc]
      refine .name w _ (p ++ s) h0 hw (.inr ?_) h2
      obtain ⟨c, cs, rfl⟩ := List.exists_cons_of_ne_nil hp0
      simpa using hp

/-- `with_suffix` names a file in the same directory, with the suffix at the end of the name; a path that ends in a slash, or an empty
one, is refused. -/
theorem C104_suffix (fs : FS) (path suffix : Bytes) :
    (withSuffix path suffix = .throws "std::invalid_argument" ↔ path = [] ∨ path.getLast? = some 47) ∧
    (47 ∉ suffix → path.getLast? ≠ some 47 → ∀ d w, Place fs path d w →
      ∃ q, withSuffix path suffix = .ok q ∧ Place fs q d (w ++ suffix)) := by
  unfold withSuffix
  refine ⟨by split <;> simp [*], fun hs hl d w hp => ?_⟩
  obtain ⟨ws, n, hr, hn, hw⟩ := hp
  have h0 : path ≠ [] := by
    rintro rfl
    have := reads_unique hr
    exact absurd this (by simp [names, pieces])
  rw [if_neg (by rintro (h | h); exacts [h0 h, hl h])]
  refine ⟨_, rfl, ?_⟩
  obtain ⟨vs, v, h1, h2⟩ := reads_suffix suffix hs _ path hr h0 hl
  obtain ⟨e1, e2⟩ := List.append_inj' h1 rfl
  injection e2 with e2
  subst e1 e2
  refine ⟨ws, n, h2, hn, ?_⟩
  have : fs.start fs.cwd (path ++ suffix) = fs.start fs.cwd path := by
    unfold FS.start
    obtain ⟨c, cs, rfl⟩ := List.exists_cons_of_ne_nil h0
    rfl
  rw [this]
  exact hw

/-! ### Examples -/

/-- `/` has a directory `bin` with a program `ls` and a directory `run`, a file `f` (also called `g`), and links: `l` to `bin/ls`, `m` to
`l`, `x` to nothing and `o` to itself. -/
def sample104 : FS where
  root := 0
  cwd := 0
  node := fun i =>
    if i = 0 then { kind := .dir [(str ".", 0), (str "..", 0), (str "bin", 1), (str "f", 3), (str "g", 3), (str "l", 4), (str "m", 5),
      (str "x", 6), (str "o", 7)] }
    else if i = 1 then { kind := .dir [(str ".", 1), (str "..", 0), (str "ls", 2), (str "run", 8)] }
    else if i = 2 then { kind := .reg, size := 10, mtime := 77 }
    else if i = 3 then { kind := .reg, exec := false, size := 5 }
    else if i = 4 then { kind := .link 98 (str "in/ls") }
    else if i = 5 then { kind := .link 108 [] }
    else if i = 6 then { kind := .link 122 [] }
    else if i = 7 then { kind := .link 111 [] }
    else { kind := .dir [(str ".", 8), (str "..", 1)] }

example : At sample104 0 true (str "/m") 2 := resolve_ok.1 (by decide +kernel)
example : At sample104 0 true (str "bin//./../l") 2 := resolve_ok.1 (by decide +kernel)
example : At sample104 0 false (str "m") 5 := resolve_ok.1 (by decide +kernel)
example : Absent sample104 0 true (str "x") := resolve_enoent.1 (by decide +kernel)
example : Wall sample104 0 true (str "f/a") := resolve_enotdir.1 (by decide +kernel)
example : Wall sample104 0 true (str "f/") := resolve_enotdir.1 (by decide +kernel)
example : resolve sample104 0 true (str "o") = .error .eloop := by decide +kernel
example : isdir sample104 (str "bin/") = .ok true ∧ isreg sample104 (str "m") = .ok true ∧ islnk sample104 (str "m") = .ok false ∧
    Files.size sample104 (str "l") = .ok 10 ∧ timestampOr sample104 (str "none") 3 = .ok 3 := by
  decide +kernel
example : readlinkat sample104 0 (str "l") = .ok (str "bin/ls") :=
  (C104_readlink _ _ _ _).2 ⟨4, resolve_ok.1 (by decide +kernel), 98, str "in/ls", rfl, rfl⟩
example : Place sample104 (str "bin/../l") 0 (str "l") := parent_ok.1 (by decide +kernel)
example : sample104.Entry 0 (str "l") 4 ∧ ¬ sample104.isDir 4 :=
  ⟨entry_ok.1 (by decide +kernel), fun h => absurd (isDir_iff.2 h) (by decide +kernel)⟩
example : (unlinkIfExists sample104 (str "l")).1 = .ok true ∧ (unlinkIfExists sample104 (str "bin")).1 = .throws systemError ∧
    (unlinkIfExists sample104 (str "no/f")).1 = .ok false ∧ isreg (unlinkIfExists sample104 (str "l")).2 (str "bin/ls") = .ok true ∧
    isreg (unlinkIfExists sample104 (str "l")).2 (str "m") = .ok false := by decide +kernel
example : Place sample104 (str "f") 0 (str "f") ∧ Place sample104 (str "bin/h") 1 (str "h") ∧ sample104.NoEntry 1 (str "h") :=
  ⟨parent_ok.1 (by decide +kernel), parent_ok.1 (by decide +kernel), entry_enoent.1 (by decide +kernel)⟩
example : isreg (renameIfExists (fun fs _ _ => .ok fs) sample104 (str "f") (str "bin/h")).2 (str "bin/h") = .ok true ∧
    isreg (renameIfExists (fun fs _ _ => .ok fs) sample104 (str "f") (str "bin/h")).2 (str "f") = .ok false := by decide +kernel
example : Runs sample104 (under (str "/bin") (str "ls")) ∧ ¬ Runs sample104 (under (str "/") (str "f")) :=
  ⟨(access_runs _ _).1 (by decide +kernel), fun h => absurd ((access_runs _ _).2 h) (by decide +kernel)⟩
example : which sample104 (str "/") (some (str "/no::/:bin")) (str "ls") = .ok (str "/bin/ls") := by decide +kernel

/-- Discrepancy: `which` also gives directories: they may be searched, which is taken for the permission to execute. -/
theorem C104_violated_which_directory : which sample104 (str "/") (some (str "/bin")) (str "run") = .ok (str "/bin/run") ∧
    isdir sample104 (str "/bin/run") = .ok true := by decide +kernel

end Msat.Props
