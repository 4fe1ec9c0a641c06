import Verif.Lemmas.Sys

namespace Msat.Props
open Sys SysSpec

/-! ### C39: retried reads and writes -/

/-- At every moment, under every schedule of short writes and failures, the file holds the old bytes
overwritten with the first `k` bytes of the buffer, the position has advanced by `k`, and nothing else has
changed; when the function returns, `k` is the whole buffer. -/
theorem C39_write (fd ino pos : Nat) (i : Inode) (buf : Bytes) (os : OS) (rs : List Answer)
    (hf : os.fds fd = some (ino, pos)) (hi : os.inode ino = some i) :
    let r := writeAllOrRetry fd buf os rs
    ∃ k i', k ≤ buf.length ∧ r.os.inode ino = some i' ∧ i'.mode = i.mode ∧
      (k = 0 → i'.content = i.content) ∧ (0 < k → Overwritten i.content pos (buf.take k) i'.content) ∧
      r.os.fds fd = some (ino, pos + k) ∧
      (∀ j, j ≠ ino → r.os.inode j = os.inode j) ∧ (∀ f, f ≠ fd → r.os.fds f = os.fds f) ∧ r.os.dir = os.dir ∧
      ((∃ os' rs', r = .done () os' rs') → k = buf.length) := by
  obtain ⟨k, h1, h2, h3⟩ := writeAll_spec fd ino rs buf os pos i hf hi
  intro r
  have hr : r.os = wrote os fd ino pos i (buf.take k) := h2
  have hl : (buf.take k).length = k := by rw [List.length_take]; omega
  refine ⟨k, _, h1, by rw [hr]; exact wrote_inode _ hi, ?_, ?_, ?_, ?_, ?_, ?_, ?_, ?_⟩
  · split <;> rfl
  · intro h; rw [h]; simp
  · intro h
    have : buf.take k ≠ [] := by intro h'; rw [h'] at hl; simp at hl; omega
    rw [if_neg this]
    exact overwritten_writeAt _ _ _ this
  · rw [hr, wrote_fds _ hf, hl]
  · intro j hj; rw [hr, wrote_inode_ne _ hj]
  · intro f hf; rw [hr, wrote_fds_ne _ hf]
  · rw [hr, wrote_dir]
  · rintro ⟨os', rs', h⟩; exact h3 os' rs' h

/-- Writing comes to its end, if every write makes some progress. -/
theorem C39_write_ends (fd ino : Nat) : ∀ (rs : List Answer) (buf : Bytes) (os : OS) (pos : Nat) (i : Inode),
    os.fds fd = some (ino, pos) → os.inode ino = some i →
    (∀ a ∈ rs, ∃ n, a = .ok (n + 1)) → buf.length ≤ rs.length →
    ∃ os' rs', writeAllOrRetry fd buf os rs = .done () os' rs' := by
  intro rs
  induction rs with
  | nil =>
    intro buf os pos i _ _ _ hl
    have : buf = [] := List.eq_nil_of_length_eq_zero (by simpa using hl)
    rw [writeAllOrRetry.eq_def, if_pos this]
    exact ⟨_, _, rfl⟩
  | cons r rs ih =>
    intro buf os pos i hf hi hr hl
    rw [writeAllOrRetry.eq_def]
    split
    · exact ⟨_, _, rfl⟩
    · rename_i hb
      obtain ⟨n, rfl⟩ := hr r (by simp)
      have hb' : 0 < buf.length := List.length_pos_iff.2 hb
      simp only [sysWrite, hf, hi, Option.bind_eq_bind, Option.bind_some]
      rw [if_neg (by omega)]
      dsimp only
      refine ih _ _ _ _ (upd_same _ _ _) (upd_same _ _ _) (fun a ha => hr a (by simp [ha])) ?_
      rw [List.length_drop]
      simp only [List.length_cons] at hl
      omega

theorem readLoop_spec (fd ino count : Nat) (i : Inode) (pos : Nat) : ∀ (rs : List Answer) (got : Bytes) (os : OS),
    os.fds fd = some (ino, pos + got.length) → os.inode ino = some i → got.length ≤ count →
    got = (i.content.drop pos).take got.length →
    (∀ ok b os' rs', readLoop fd count got os rs = .done (ok, b) os' rs' →
      (if ok then b = (i.content.drop pos).take count ∧ b.length = count ∧ os'.fds fd = some (ino, pos + count)
       else i.content.length ≤ pos ∧ 0 < count)) ∧
    (∀ os' rs', (∀ a ∈ rs, ∃ n, a = .ok n) → readLoop fd count got os rs = .threw os' rs' →
      pos < i.content.length ∧ i.content.length < pos + count) ∧
    (∀ os', (∀ a ∈ rs, ∃ n, a = .ok n) → readLoop fd count got os rs = .running os' → rs.length + got.length < count + 1) ∧
    (readLoop fd count got os rs).os.inode = os.inode ∧ (readLoop fd count got os rs).os.dir = os.dir := by
  intro rs
  induction rs with
  | nil =>
    intro got os hf hi hg hp
    rw [readLoop.eq_def]
    by_cases h : count ≤ got.length
    · rw [if_pos h]
      refine ⟨?_, ?_, ?_, rfl, rfl⟩
      · intro ok b os' rs' e
        injection e with e1 e2 e3
        injection e1 with e1 e4
        subst e1 e4 e2
        have : got.length = count := by omega
        rw [if_pos rfl]
        exact ⟨by rw [← this]; exact hp, this, by rw [hf, this]⟩
      · intro _ _ _ e; cases e
      · intro _ _ e; cases e
    · rw [if_neg h]
      refine ⟨?_, ?_, ?_, rfl, rfl⟩
      · intro _ _ _ _ e; cases e
      · intro _ _ _ e; cases e
      · intro _ _ _; simp; omega
  | cons r rs ih =>
    intro got os hf hi hg hp
    rw [readLoop.eq_def]
    by_cases h : count ≤ got.length
    · rw [if_pos h]
      refine ⟨?_, ?_, ?_, rfl, rfl⟩
      · intro ok b os' rs' e
        injection e with e1 e2 e3
        injection e1 with e1 e4
        subst e1 e4 e2
        have : got.length = count := by omega
        rw [if_pos rfl]
        exact ⟨by rw [← this]; exact hp, this, by rw [hf, this]⟩
      · intro _ _ _ e; cases e
      · intro _ _ e; cases e
    · rw [if_neg h]
      dsimp only
      have bad : ∀ r, sysRead fd (count - got.length) os r = none → (¬ ∃ n, r = .ok n) →
          ((∀ ok b os' rs', (Run.threw os rs : Run (Bool × Bytes)) = .done (ok, b) os' rs' →
            (if ok then b = (i.content.drop pos).take count ∧ b.length = count ∧ os'.fds fd = some (ino, pos + count)
             else i.content.length ≤ pos ∧ 0 < count)) ∧
          (∀ os' rs', (∀ a ∈ r :: rs, ∃ n, a = .ok n) → (Run.threw os rs : Run (Bool × Bytes)) = .threw os' rs' →
            pos < i.content.length ∧ i.content.length < pos + count) ∧
          (∀ os', (∀ a ∈ r :: rs, ∃ n, a = .ok n) → (Run.threw os rs : Run (Bool × Bytes)) = .running os' →
            (r :: rs).length + got.length < count + 1) ∧
          (Run.threw os rs : Run (Bool × Bytes)).os.inode = os.inode ∧ (Run.threw os rs : Run (Bool × Bytes)).os.dir = os.dir) := by
        intro r _ hn
        refine ⟨?_, ?_, ?_, rfl, rfl⟩
        · intro _ _ _ _ e; cases e
        · intro _ _ ha _; exact absurd (ha r (by simp)) hn
        · intro _ _ e; cases e
      cases r with
      | err => exact bad .err rfl (by rintro ⟨n, h⟩; cases h)
      | opened a b c => exact bad (.opened a b c) rfl (by rintro ⟨n, h⟩; cases h)
      | ok n =>
        have hs : sysRead fd (count - got.length) os (.ok n) =
            some ((i.content.drop (pos + got.length)).take (min (count - got.length) (max 1 n)),
              { os with fds := upd os.fds fd (some (ino, pos + got.length +
                ((i.content.drop (pos + got.length)).take (min (count - got.length) (max 1 n))).length)) }) := by
          simp only [sysRead, hf, hi, Option.bind_eq_bind, Option.bind_some]
        rw [hs]
        dsimp only
        generalize hk : min (count - got.length) (max 1 n) = k
        have hk1 : 0 < k ∧ k ≤ count - got.length := by omega
        by_cases hnil : (i.content.drop (pos + got.length)).take k = []
        · rw [if_pos hnil]
          have hend : i.content.length ≤ pos + got.length := by
            have := congrArg List.length hnil
            simp only [List.length_take, List.length_drop, List.length_nil] at this
            omega
          by_cases hg0 : got = []
          · rw [if_pos hg0]
            subst hg0
            refine ⟨?_, ?_, ?_, rfl, rfl⟩
            · intro ok b os' rs' e
              injection e with e1 e2 e3
              injection e1 with e1 e4
              subst e1
              simp only [List.length_nil, Nat.add_zero] at hend h
              simp only [Bool.false_eq_true, if_false]
              exact ⟨hend, by omega⟩
            · intro _ _ _ e; cases e
            · intro _ _ e; cases e
          · rw [if_neg hg0]
            refine ⟨?_, ?_, ?_, rfl, rfl⟩
            · intro _ _ _ _ e; cases e
            · intro _ _ _ _
              have h1 := congrArg List.length hp
              simp only [List.length_take, List.length_drop] at h1
              have h2 : 0 < got.length := List.length_pos_iff.2 hg0
              omega
            · intro _ _ e; cases e
        · rw [if_neg hnil]
          have hbl : 0 < ((i.content.drop (pos + got.length)).take k).length := List.length_pos_iff.2 hnil
          have := ih (got ++ (i.content.drop (pos + got.length)).take k)
            (os := { os with fds := upd os.fds fd (some (ino, pos + got.length +
                ((i.content.drop (pos + got.length)).take k).length)) })
            (by rw [List.length_append, ← Nat.add_assoc]; exact upd_same _ _ _) hi
            (by rw [List.length_append, List.length_take]; omega)
            (by
              rw [List.length_append]
              have hp' : (i.content.drop pos).take (got.length + ((i.content.drop (pos + got.length)).take k).length)
                = (i.content.drop pos).take got.length ++ ((i.content.drop pos).drop got.length).take
                    ((i.content.drop (pos + got.length)).take k).length := List.take_add
              rw [hp', ← hp, List.drop_drop]
              congr 1
              rw [List.length_take]
              exact List.take_eq_take_iff.2 (by omega))
          obtain ⟨a1, a2, a3, a4, a5⟩ := this
          refine ⟨a1, ?_, ?_, a4, a5⟩
          · intro os' rs' ha; exact a2 os' rs' (fun a h => ha a (by simp [h]))
          · intro os' ha e
            have := a3 os' (fun a h => ha a (by simp [h])) e
            rw [List.length_append] at this
            simp only [List.length_cons]
            omega

/-- Reading: `true` comes with exactly the next bytes of the file and moves the position behind them, `false`
comes only at the end of the file; the file is not changed. -/
theorem C39_read (fd ino pos count : Nat) (i : Inode) (os : OS) (rs : List Answer)
    (hf : os.fds fd = some (ino, pos)) (hi : os.inode ino = some i) :
    let r := readAllOrRetry fd count os rs
    (∀ b os' rs', r = .done (true, b) os' rs' →
      b = (i.content.drop pos).take count ∧ b.length = count ∧ os'.fds fd = some (ino, pos + count)) ∧
    (∀ b os' rs', r = .done (false, b) os' rs' → i.content.length ≤ pos ∧ 0 < count) ∧
    r.os.inode = os.inode ∧ r.os.dir = os.dir := by
  have h := readLoop_spec fd ino count i pos rs [] os (by simpa using hf) hi (by simp) (by simp)
  obtain ⟨h1, _, _, h4, h5⟩ := h
  refine ⟨fun b os' rs' e => ?_, fun b os' rs' e => ?_, h4, h5⟩
  · have := h1 true b os' rs' e
    rwa [if_pos rfl] at this
  · have := h1 false b os' rs' e
    rwa [if_neg (by decide)] at this

/-- What reading comes to when no call fails, under every schedule of short reads: all the bytes asked for if
the file has them, `false` at the end of the file, an exception if the file ends in between. -/
theorem C39_read_outcome (fd ino pos count : Nat) (i : Inode) (os : OS) (rs : List Answer)
    (hf : os.fds fd = some (ino, pos)) (hi : os.inode ino = some i) (hok : ∀ a ∈ rs, ∃ n, a = .ok n)
    (hlong : count < rs.length) :
    match readAllOrRetry fd count os rs with
    | .done (true, b) _ _ => pos + count ≤ max pos i.content.length ∧ b = (i.content.drop pos).take count
    | .done (false, _) _ _ => i.content.length ≤ pos ∧ 0 < count
    | .threw _ _ => pos < i.content.length ∧ i.content.length < pos + count
    | .running _ => False := by
  have h := readLoop_spec fd ino count i pos rs [] os (by simpa using hf) hi (by simp) (by simp)
  obtain ⟨h1, h2, h3, _, _⟩ := h
  split
  · rename_i b os' rs' e
    have := h1 true b os' rs' e
    rw [if_pos rfl] at this
    refine ⟨?_, this.1⟩
    have h := this.2.1
    rw [this.1, List.length_take, List.length_drop] at h
    omega
  · rename_i b os' rs' e
    have := h1 false b os' rs' e
    rwa [if_neg (by decide)] at this
  · rename_i os' rs' e
    exact h2 os' rs' hok e
  · rename_i os' e
    have := h3 os' hok e
    simp only [List.length_nil] at this
    omega

/-- The variants that do not retry give everything or throw. -/
theorem C39_no_retry (fd ino pos count : Nat) (buf : Bytes) (i : Inode) (os : OS) (rs : List Answer)
    (hf : os.fds fd = some (ino, pos)) (hi : os.inode ino = some i) :
    (∀ b os' rs', readAllOrThrow fd count os rs = .done b os' rs' → b = (i.content.drop pos).take count ∧ b.length = count) ∧
    (∀ os' rs', buf ≠ [] → writeAllOrThrow fd buf os rs = .done () os' rs' →
      ∃ i', os'.inode ino = some i' ∧ Overwritten i.content pos buf i'.content) := by
  constructor
  · intro b os' rs' e
    cases rs with
    | nil => cases e
    | cons r rs =>
      cases r with
      | err => cases e
      | opened _ _ _ => cases e
      | ok n =>
        simp only [readAllOrThrow, bind, call, sysRead, hf, hi, Option.bind_some] at e
        split at e
        · cases e
        · rename_i hb
          injection e with e1 _ _
          subst e1
          have hb : ((i.content.drop pos).take (min count (max 1 n))).length = count := by
            by_cases h : ((i.content.drop pos).take (min count (max 1 n))).length = count
            · exact h
            · exact absurd h hb
          refine ⟨?_, hb⟩
          rw [List.length_take, List.length_drop] at hb
          exact List.take_eq_take_iff.2 (by rw [List.length_drop]; omega)
  · intro os' rs' hb e
    cases rs with
    | nil => cases e
    | cons r rs =>
      cases r with
      | err => cases e
      | opened _ _ _ => cases e
      | ok n =>
        have hb' : 0 < buf.length := List.length_pos_iff.2 hb
        simp only [writeAllOrThrow, bind, call, sysWrite, hf, hi, Option.bind_some] at e
        by_cases h0 : min n buf.length = 0
        · rw [if_pos h0] at e
          dsimp only at e
          rw [if_pos hb'] at e
          cases e
        · rw [if_neg h0] at e
          dsimp only at e
          split at e
          · cases e
          · rename_i hk
            injection e with _ e2 _
            subst e2
            refine ⟨_, upd_same _ _ _, ?_⟩
            have : buf.take (min n buf.length) = buf := List.take_of_length_le (by omega)
            rw [this]
            exact overwritten_writeAt _ _ _ hb

/-! ### C38: atomic write -/

/-- The file has been replaced, and that is all that has changed. -/
def Replaced (os os' : OS) (file data : Bytes) (mode : Nat) : Prop :=
  contentOf os' file = some data ∧ modeOf os' file = some (mode &&& (0o7777 ^^^ os.umask)) ∧
  ∀ name, name ≠ file → os'.dir name = os.dir name

/-- The file has not been touched; there may be one new file, with six more characters in its name. -/
def Untouched (os os' : OS) (file : Bytes) : Prop :=
  os'.dir file = os.dir file ∧
  ∃ suffix : Bytes, suffix.length = 6 ∧ ∀ name, os'.dir name ≠ os.dir name → name = file ++ suffix ∧ os.dir name = none

/-- What existed before still exists, as it was. -/
def Kept (os os' : OS) : Prop :=
  (∀ j i, os.inode j = some i → os'.inode j = some i) ∧ (∀ f x, os.fds f = some x → os'.fds f = some x)

/-- Between the creation of the temporary file and the renaming. -/
def Mid (os os' : OS) (fd ino : Nat) (tmp : Bytes) : Prop :=
  os'.dir = upd os.dir tmp (some ino) ∧ (∀ j, j ≠ ino → os'.inode j = os.inode j) ∧ (∀ f, f ≠ fd → os'.fds f = os.fds f)

theorem kept_of_mid {os os' : OS} {fd ino : Nat} (hfd : os.fds fd = none) (hino : os.inode ino = none)
    (h2 : ∀ j, j ≠ ino → os'.inode j = os.inode j) (h3 : ∀ f, f ≠ fd → os'.fds f = os.fds f) : Kept os os' := by
  constructor
  · intro j i hj
    rw [h2 j (by rintro rfl; rw [hino] at hj; cases hj), hj]
  · intro f x hf
    rw [h3 f (by rintro rfl; rw [hfd] at hf; cases hf), hf]

theorem untouched_of_mid {os os' : OS} {fd ino : Nat} {file suffix : Bytes} (h6 : suffix.length = 6)
    (hn : os.dir (file ++ suffix) = none) (h : Mid os os' fd ino (file ++ suffix)) : Untouched os os' file := by
  have hne : file ≠ file ++ suffix := by
    intro e
    have := congrArg List.length e
    rw [List.length_append] at this
    omega
  refine ⟨by rw [h.1, upd_ne _ _ hne], suffix, h6, ?_⟩
  intro name hname
  by_cases e : name = file ++ suffix
  · exact ⟨e, by rw [e]; exact hn⟩
  · rw [h.1, upd_ne _ _ e] at hname
    exact absurd rfl hname

/-- What can be said after the creation of the temporary file: the renaming has not happened, or everything
has. -/
def Inner (os : OS) (file tmp data : Bytes) (mode fd ino : Nat) (r : Run Unit) : Prop :=
  (Mid os r.os fd ino tmp ∧ ¬ ∃ os' rs', r = .done () os' rs') ∨
  (r.os.dir = upd (upd (upd os.dir tmp (some ino)) file (some ino)) tmp none ∧
    r.os.inode ino = some ⟨data, mode⟩ ∧ (∀ j, j ≠ ino → r.os.inode j = os.inode j) ∧
    (∀ f, f ≠ fd → r.os.fds f = os.fds f))

theorem inner_threw {os os' : OS} {file tmp data : Bytes} {mode fd ino : Nat} {rs : List Answer}
    (h : Mid os os' fd ino tmp) : Inner os file tmp data mode fd ino (.threw os' rs) :=
  .inl ⟨h, by rintro ⟨_, _, h⟩; cases h⟩

theorem inner_running {os os' : OS} {file tmp data : Bytes} {mode fd ino : Nat}
    (h : Mid os os' fd ino tmp) : Inner os file tmp data mode fd ino (.running os') :=
  .inl ⟨h, by rintro ⟨_, _, h⟩; cases h⟩

theorem inner_spec (file tmp data : Bytes) (mode fd ino : Nat) (os os1 : OS) (hne : tmp ≠ file)
    (hdir : os1.dir = upd os.dir tmp (some ino)) (hold : os.dir file ≠ some ino)
    (hin : os1.inode = upd os.inode ino (some ⟨[], 0o600⟩)) (hfds : os1.fds = upd os.fds fd (some (ino, 0)))
    (rs : List Answer) :
    Inner os file tmp data mode fd ino ((do
      call (sysFchmod fd mode)
      writeAllOrRetry fd data
      call (sysClose fd)
      call (sysRename tmp file) : Proc Unit) os1 rs) := by
  have hf1 : os1.fds fd = some (ino, 0) := by rw [hfds, upd_same]
  have hi1 : os1.inode ino = some ⟨[], 0o600⟩ := by rw [hin, upd_same]
  have mid1 : Mid os os1 fd ino tmp := ⟨hdir, fun j h => by rw [hin, upd_ne _ _ h], fun f h => by rw [hfds, upd_ne _ _ h]⟩
  cases rs with
  | nil => exact inner_running mid1
  | cons a rs =>
    cases a with
    | err => exact inner_threw mid1
    | opened _ _ _ => exact inner_threw mid1
    | ok n =>
      -- the permissions have been set
      have e2 : call (sysFchmod fd mode) os1 (.ok n :: rs) = .done ()
          { os1 with inode := upd os1.inode ino (some ⟨[], mode⟩) } rs := by
        simp only [call, sysFchmod, hf1, hi1, Option.bind_eq_bind, Option.bind_some]
      generalize hos2 : ({ os1 with inode := upd os1.inode ino (some ⟨[], mode⟩) } : OS) = os2 at e2
      have hf2 : os2.fds fd = some (ino, 0) := by rw [← hos2]; exact hf1
      have hi2 : os2.inode ino = some ⟨[], mode⟩ := by rw [← hos2]; exact upd_same _ _ _
      have mid2 : Mid os os2 fd ino tmp := by
        rw [← hos2]
        exact ⟨mid1.1, fun j h => by show upd os1.inode ino _ j = _; rw [upd_ne _ _ h, mid1.2.1 j h], mid1.2.2⟩
      rw [bind_done e2]
      -- the data have been written
      obtain ⟨k, h1, h2, h3⟩ := writeAll_spec fd ino rs data os2 0 _ hf2 hi2
      have mid3 : Mid os (writeAllOrRetry fd data os2 rs).os fd ino tmp := by
        rw [h2]
        exact ⟨by rw [wrote_dir]; exact mid2.1, fun j h => by rw [wrote_inode_ne _ h, mid2.2.1 j h],
          fun f h => by rw [wrote_fds_ne _ h, mid2.2.2 f h]⟩
      cases e3 : writeAllOrRetry fd data os2 rs with
      | threw os3 rs3 => rw [e3] at mid3; rw [bind_threw e3]; exact inner_threw mid3
      | running os3 => rw [e3] at mid3; rw [bind_running e3]; exact inner_running mid3
      | done u os3 rs3 =>
        rw [bind_done e3]
        rw [e3] at h2 mid3
        have hk := h3 os3 rs3 e3
        have h2 : os3 = wrote os2 fd ino 0 ⟨[], mode⟩ data := by
          have : os3 = wrote os2 fd ino 0 ⟨[], mode⟩ (data.take k) := h2
          rw [this, hk, List.take_of_length_le (Nat.le_refl _)]
        have hi3 : os3.inode ino = some ⟨data, mode⟩ := by
          rw [h2, wrote_inode _ hi2]
          split
          · rename_i h; rw [h]
          · simp [writeAt]
        -- the descriptor has been closed
        cases rs3 with
        | nil => exact inner_running mid3
        | cons a rs3 =>
          cases a with
          | err => exact inner_threw mid3
          | opened _ _ _ => exact inner_threw mid3
          | ok m =>
            have e4 : call (sysClose fd) os3 (.ok m :: rs3) = .done () { os3 with fds := upd os3.fds fd none } rs3 := rfl
            rw [bind_done e4]
            have mid4 : Mid os { os3 with fds := upd os3.fds fd none } fd ino tmp :=
              ⟨mid3.1, mid3.2.1, fun f h => by show upd os3.fds fd none f = _; rw [upd_ne _ _ h]; exact mid3.2.2 f h⟩
            cases rs3 with
            | nil => exact inner_running mid4
            | cons a rs3 =>
              cases a with
              | err => exact inner_threw mid4
              | opened _ _ _ => exact inner_threw mid4
              | ok l =>
                have hd3 : os3.dir = upd os.dir tmp (some ino) := mid3.1
                have ht : os3.dir tmp = some ino := by rw [hd3, upd_same]
                have hfi : ¬ os3.dir file = some ino := by rw [hd3, upd_ne _ _ (Ne.symm hne)]; exact hold
                have e5 : call (sysRename tmp file) { os3 with fds := upd os3.fds fd none } (.ok l :: rs3) =
                    .done () { os3 with fds := upd os3.fds fd none, dir := upd (upd os3.dir file (some ino)) tmp none } rs3 := by
                  simp only [call, sysRename, ht, Option.bind_eq_bind, Option.bind_some]
                  rw [if_neg hfi]
                rw [e5]
                refine .inr ⟨by rw [← hd3]; rfl, hi3, mid3.2.1, mid4.2.2⟩

/-- At every moment of `write_file_atomically` (in the middle, after an exception, at the end) the file is as it
was, or it has been replaced completely. -/
theorem atomic_spec (file data : Bytes) (mode : Nat) (os : OS) (rs : List Answer) (hsound : Sound os) :
    let r := writeFileAtomically file data mode os rs
    Kept os r.os ∧ (Untouched os r.os file ∨ Replaced os r.os file data mode) ∧
    ((∃ os' rs', r = .done () os' rs') → Replaced os r.os file data mode) := by
  have same : Kept os os ∧ Untouched os os file :=
    ⟨⟨fun _ _ h => h, fun _ _ h => h⟩, rfl, List.replicate 6 0, by simp, fun _ h => absurd rfl h⟩
  have nothing : ∀ r : Run Unit, r.os = os → (¬ ∃ os' rs', r = .done () os' rs') →
      Kept os r.os ∧ (Untouched os r.os file ∨ Replaced os r.os file data mode) ∧
      ((∃ os' rs', r = .done () os' rs') → Replaced os r.os file data mode) := by
    intro r h hn
    rw [h]
    exact ⟨same.1, .inl same.2, fun h => absurd h hn⟩
  cases rs with
  | nil => exact nothing _ rfl (by rintro ⟨_, _, h⟩; cases h)
  | cons a rs =>
    cases a with
    | err => exact nothing _ rfl (by rintro ⟨_, _, h⟩; cases h)
    | ok n => exact nothing _ rfl (by rintro ⟨_, _, h⟩; cases h)
    | opened fd ino suffix =>
      by_cases hc : os.fds fd = none ∧ os.inode ino = none ∧ suffix.length = 6 ∧ os.dir (file ++ suffix) = none
      · obtain ⟨hfd, hino, h6, hn⟩ := hc
        have e1 : call (sysMkstemp file) os (.opened fd ino suffix :: rs) = .done (fd, file ++ suffix) { os with
            dir := upd os.dir (file ++ suffix) (some ino)
            inode := upd os.inode ino (some ⟨[], 0o600⟩)
            fds := upd os.fds fd (some (ino, 0)) } rs := by
          simp only [call, sysMkstemp]
          rw [if_pos ⟨hfd, hino, h6, hn⟩]
        have hne : file ++ suffix ≠ file := by
          intro e
          have := congrArg List.length e
          rw [List.length_append] at this
          omega
        have hold : os.dir file ≠ some ino := by
          intro h
          obtain ⟨i, hi⟩ := hsound _ _ h
          rw [hino] at hi
          cases hi
        have hinner := inner_spec file (file ++ suffix) data (mode &&& (0o7777 ^^^ os.umask)) fd ino os { os with
            dir := upd os.dir (file ++ suffix) (some ino)
            inode := upd os.inode ino (some ⟨[], 0o600⟩)
            fds := upd os.fds fd (some (ino, 0)) } hne rfl hold rfl rfl rs
        have e : writeFileAtomically file data mode os (.opened fd ino suffix :: rs) =
            inScope (do
              call (sysFchmod fd (mode &&& (0o7777 ^^^ os.umask)))
              writeAllOrRetry fd data
              call (sysClose fd)
              call (sysRename (file ++ suffix) file)) (closeDtor fd) { os with
            dir := upd os.dir (file ++ suffix) (some ino)
            inode := upd os.inode ino (some ⟨[], 0o600⟩)
            fds := upd os.fds fd (some (ino, 0)) } rs := by
          unfold writeFileAtomically
          rw [bind_done e1]
          rfl
        rw [e]
        generalize hq : ((do
              call (sysFchmod fd (mode &&& (0o7777 ^^^ os.umask)))
              writeAllOrRetry fd data
              call (sysClose fd)
              call (sysRename (file ++ suffix) file) : Proc Unit) : Proc Unit) = q at hinner
        generalize hos1 : ({ os with
            dir := upd os.dir (file ++ suffix) (some ino)
            inode := upd os.inode ino (some ⟨[], 0o600⟩)
            fds := upd os.fds fd (some (ino, 0)) } : OS) = os1 at hinner
        -- the destructor only closes the descriptor
        have hdt : ∃ os', (inScope q (closeDtor fd) os1 rs).os = os' ∧ os'.dir = (q os1 rs).os.dir ∧
            os'.inode = (q os1 rs).os.inode ∧ (∀ f, f ≠ fd → os'.fds f = (q os1 rs).os.fds f) ∧
            ((∃ a b, inScope q (closeDtor fd) os1 rs = .done () a b) → ∃ a b, q os1 rs = .done () a b) := by
          unfold inScope
          cases q os1 rs with
          | done a o r => exact ⟨_, rfl, rfl, rfl, fun f h => upd_ne _ _ h, fun _ => ⟨_, _, rfl⟩⟩
          | threw o r => exact ⟨_, rfl, rfl, rfl, fun f h => upd_ne _ _ h, by rintro ⟨_, _, h⟩; cases h⟩
          | running o => exact ⟨_, rfl, rfl, rfl, fun f h => rfl, by rintro ⟨_, _, h⟩; cases h⟩
        obtain ⟨os', h0, h1, h2, h3, h4⟩ := hdt
        dsimp only
        rw [h0]
        rcases hinner with ⟨hm, hnd⟩ | ⟨i1, i2, i3, i4⟩
        · have hm' : Mid os os' fd ino (file ++ suffix) :=
            ⟨by rw [h1]; exact hm.1, fun j h => by rw [h2]; exact hm.2.1 j h, fun f h => by rw [h3 f h]; exact hm.2.2 f h⟩
          exact ⟨kept_of_mid hfd hino hm'.2.1 hm'.2.2, .inl (untouched_of_mid h6 hn hm'), fun h => absurd (h4 h) hnd⟩
        · have hrep : Replaced os os' file data mode := by
            have hf : os'.dir file = some ino := by rw [h1, i1, upd_ne _ _ (Ne.symm hne), upd_same]
            refine ⟨?_, ?_, ?_⟩
            · unfold contentOf; rw [hf, h2]; dsimp only; rw [i2]; rfl
            · unfold modeOf; rw [hf, h2]; dsimp only; rw [i2]; rfl
            · intro name hname
              rw [h1, i1]
              by_cases e : name = file ++ suffix
              · rw [e, upd_same, hn]
              · rw [upd_ne _ _ e, upd_ne _ _ hname, upd_ne _ _ e]
          exact ⟨kept_of_mid hfd hino (fun j h => by rw [h2]; exact i3 j h) (fun f h => by rw [h3 f h]; exact i4 f h),
            .inr hrep, fun _ => hrep⟩
      · have e1 : call (sysMkstemp file) os (.opened fd ino suffix :: rs) = .threw os rs := by
          simp only [call, sysMkstemp]
          rw [if_neg hc]
        refine nothing _ ?_ ?_
        · unfold writeFileAtomically; rw [bind_threw e1]; rfl
        · unfold writeFileAtomically; rw [bind_threw e1]; rintro ⟨_, _, h⟩; cases h

/-- At every point where the process may stop, and after an exception, the file has its previous content or
the complete new content. -/
theorem C38_atomic (file data : Bytes) (mode : Nat) (os : OS) (rs : List Answer) (hsound : Sound os) :
    let os' := (writeFileAtomically file data mode os rs).os
    contentOf os' file = contentOf os file ∨ contentOf os' file = some data := by
  obtain ⟨h1, h2, _⟩ := atomic_spec file data mode os rs hsound
  rcases h2 with h | h
  · left
    show contentOf _ _ = _
    unfold contentOf
    rw [h.1]
    cases hd : os.dir file with
    | none => rfl
    | some ino =>
      obtain ⟨i, hi⟩ := hsound _ _ hd
      dsimp only
      rw [h1.1 _ _ hi, hi]
  · exact .inr h.1

/-- After a successful return it has the new content, and the permissions asked for, less the umask; the
temporary file is gone. -/
theorem C38_success (file data : Bytes) (mode : Nat) (os os' : OS) (rs rs' : List Answer) (hsound : Sound os)
    (h : writeFileAtomically file data mode os rs = .done () os' rs') :
    contentOf os' file = some data ∧ modeOf os' file = some (mode &&& (0o7777 ^^^ os.umask)) ∧
    ∀ name, name ≠ file → contentOf os' name = contentOf os name ∧ modeOf os' name = modeOf os name := by
  obtain ⟨h1, _, h3⟩ := atomic_spec file data mode os rs hsound
  have h4 := h3 ⟨_, _, h⟩
  rw [h] at h4 h1
  refine ⟨h4.1, h4.2.1, ?_⟩
  intro name hn
  have hd := h4.2.2 name hn
  have hd : os'.dir name = os.dir name := hd
  unfold contentOf modeOf
  rw [hd]
  cases hd' : os.dir name with
  | none => exact ⟨rfl, rfl⟩
  | some ino =>
    obtain ⟨i, hi⟩ := hsound _ _ hd'
    have : os'.inode ino = some i := h1.1 _ _ hi
    dsimp only
    rw [this, hi]
    exact ⟨rfl, rfl⟩

/-- No other file is modified, at any moment; at most one new name comes up: that of the file with six more
characters. -/
theorem C38_others (file data : Bytes) (mode : Nat) (os : OS) (rs : List Answer) (hsound : Sound os) :
    let os' := (writeFileAtomically file data mode os rs).os
    (∀ name, name ≠ file → os.dir name ≠ none → contentOf os' name = contentOf os name ∧ modeOf os' name = modeOf os name) ∧
    (∃ suffix : Bytes, suffix.length = 6 ∧ ∀ name, name ≠ file → os.dir name = none → os'.dir name ≠ none → name = file ++ suffix) ∧
    (∀ f x, os.fds f = some x → os'.fds f = some x) := by
  obtain ⟨h1, h2, _⟩ := atomic_spec file data mode os rs hsound
  intro os'
  have hk : Kept os os' := h1
  have main : ∀ name, name ≠ file → os.dir name ≠ none → os'.dir name = os.dir name := by
    intro name hn hs
    rcases h2 with h | h
    · obtain ⟨suffix, _, h⟩ := h.2
      by_cases e : os'.dir name = os.dir name
      · exact e
      · exact absurd (h name e).2 hs
    · exact h.2.2 name hn
  refine ⟨?_, ?_, hk.2⟩
  · intro name hn hs
    have hd := main name hn hs
    unfold contentOf modeOf
    rw [hd]
    cases hd' : os.dir name with
    | none => exact ⟨rfl, rfl⟩
    | some ino =>
      obtain ⟨i, hi⟩ := hsound _ _ hd'
      dsimp only
      rw [hk.1 _ _ hi, hi]
      exact ⟨rfl, rfl⟩
  · rcases h2 with h | h
    · obtain ⟨suffix, h6, h⟩ := h.2
      refine ⟨suffix, h6, ?_⟩
      intro name hn hs hs'
      exact (h name (by intro e; exact hs' (by rw [← hs]; exact e))).1
    · refine ⟨List.replicate 6 0, by simp, ?_⟩
      intro name hn hs hs'
      exact absurd (by rw [← hs]; exact h.2.2 name hn) hs'

/-! ### Cases that meet the hypotheses -/

/-- A system with the file "a" (content 1, 2, inode 0) open for writing at its end, as descriptor 3. -/
def sampleOS : OS where
  dir := fun n => if n = [97] then some 0 else none
  inode := fun j => if j = 0 then some ⟨[1, 2], 0o644⟩ else none
  fds := fun f => if f = 3 then some (0, 2) else none
  umask := 0o022

theorem sampleOS_sound : Sound sampleOS := by
  intro name ino h
  simp only [sampleOS] at h
  split at h
  · injection h with h; subst h; exact ⟨_, rfl⟩
  · cases h

/-- Two short writes. -/
example : ∃ os' rs', writeAllOrRetry 3 [7, 8, 9] sampleOS [.ok 1, .ok 0, .ok 5] = .done () os' rs' ∧
    contentOf os' [97] = some [1, 2, 7, 8, 9] := ⟨_, _, rfl, rfl⟩

/-- A successful atomic write with short writes, and one that is stopped after the first byte. -/
example : (∃ os' rs', writeFileAtomically [97] [7, 8, 9] 0o666 sampleOS
      [.opened 4 1 [1, 2, 3, 4, 5, 6], .ok 0, .ok 1, .ok 2, .ok 0, .ok 0] = .done () os' rs' ∧
      contentOf os' [97] = some [7, 8, 9] ∧ modeOf os' [97] = some 0o644 ∧ os'.dir [97, 1, 2, 3, 4, 5, 6] = none) ∧
    (∃ os', writeFileAtomically [97] [7, 8, 9] 0o666 sampleOS [.opened 4 1 [1, 2, 3, 4, 5, 6], .ok 0, .ok 1] = .running os' ∧
      contentOf os' [97] = some [1, 2] ∧ contentOf os' [97, 1, 2, 3, 4, 5, 6] = some [7]) :=
  ⟨⟨_, _, rfl, rfl, rfl, rfl⟩, _, rfl, rfl, rfl⟩

/-- Reading: all, end of file, partial. -/
example : (∃ os', readAllOrRetry 3 2 { sampleOS with fds := upd sampleOS.fds 3 (some (0, 0)) } [.ok 1, .ok 1] = .done (true, [1, 2]) os' []) ∧
    (∃ os', readAllOrRetry 3 2 sampleOS [.ok 1] = .done (false, []) os' []) ∧
    (∃ os', readAllOrRetry 3 3 { sampleOS with fds := upd sampleOS.fds 3 (some (0, 0)) } [.ok 9, .ok 1] = .threw os' []) :=
  ⟨⟨_, rfl⟩, ⟨_, rfl⟩, ⟨_, rfl⟩⟩

end Msat.Props
