import Verif.Model.Scoped
import Verif.Lemmas.Files
import Verif.Props.C104
import Mathlib.Tactic.Common

/-
C107: what an object changes for the time of its scope (the limit of a resource, the times of a file, a temporary file) is as it was when the
scope is left, normally or by an exception.
-/
namespace Msat.Props
open Scoped FilesSpec

/-! ### Limits -/

/-- The program changes limits only by objects. -/
def OnlyObjects : Program → Prop
  | .done => True
  | .fail => True
  | .look _ rest => OnlyObjects rest
  | .change .. => False
  | .set _ _ rest => OnlyObjects rest
  | .scope _ _ inside rest => OnlyObjects inside ∧ OnlyObjects rest

/-- Soft limits are not above hard limits: true in every process. -/
def SoundLimits (p : Process) : Prop := ∀ r l, p.limits r = some l → l.cur ≤ l.max

/-- The limits are the same but for the soft limits of some resources. -/
def SameLimits (rs : List Nat) (p q : Process) : Prop :=
  q.privileged = p.privileged ∧ (∀ r, (q.limits r).map (·.max) = (p.limits r).map (·.max)) ∧ ∀ r, r ∉ rs → q.limits r = p.limits r

theorem set_same {p q : Process} {r : Nat} {l : Limit} (h : sysSetrlimit p r l = some q) (hm : (p.limits r).map (·.max) = some l.max)
    (hs : SoundLimits p) : SoundLimits q ∧ SameLimits [r] p q ∧ q.limits r = some l := by
  unfold sysSetrlimit at h
  cases hr : p.limits r with
  | none => rw [hr] at h; cases h
  | some old =>
    rw [hr] at h
    dsimp only at h
    split at h
    · cases h
    · rename_i hlt
      split at h
      · cases h
      · injection h with h
        subst h
        refine ⟨?_, ⟨rfl, ?_, ?_⟩, ?_⟩
        · intro r' l' h'
          dsimp only at h'
          split at h'
          · injection h' with h'; subst h'; omega
          · exact hs r' l' h'
        · intro r'
          dsimp only
          split
          · rename_i e; subst e; rw [hm]; rfl
          · rfl
        · intro r' hr'
          dsimp only
          rw [if_neg (fun e => hr' (by rw [e]; exact List.mem_singleton.2 rfl))]
        · dsimp only
          rw [if_pos rfl]

theorem set_allowed {p : Process} {r : Nat} {l : Limit} (hm : (p.limits r).map (·.max) = some l.max) (hl : l.cur ≤ l.max) :
    ∃ q, sysSetrlimit p r l = some q := by
  unfold sysSetrlimit
  cases hr : p.limits r with
  | none => rw [hr] at hm; cases hm
  | some old =>
    rw [hr] at hm
    have hm : old.max = l.max := Option.some.inj hm
    dsimp only
    rw [if_neg (by omega), if_neg (by omega)]
    exact ⟨_, rfl⟩

theorem same_trans {rs : List Nat} {p q s : Process} (h : SameLimits rs p q) (h' : SameLimits rs q s) : SameLimits rs p s :=
  ⟨h'.1.trans h.1, fun r => (h'.2.1 r).trans (h.2.1 r), fun r hr => (h'.2.2 r hr).trans (h.2.2 r hr)⟩

theorem same_mono {rs rs' : List Nat} {p q : Process} (h : SameLimits rs p q) (hs : ∀ r ∈ rs, r ∈ rs') : SameLimits rs' p q :=
  ⟨h.1, h.2.1, fun r hr => h.2.2 r (fun h => hr (hs r h))⟩

theorem run_same (b : Program) : ∀ (objs : List (Nat × Limit)) (p : Process), OnlyObjects b → SoundLimits p →
    (∀ o ∈ objs, (p.limits o.1).map (·.max) = some o.2.max) →
    (run b objs p).2.1 ≠ .terminated ∧ SoundLimits (run b objs p).1 ∧ SameLimits (objs.map (·.1)) p (run b objs p).1 := by
  induction b with
  | done => exact fun objs p _ hs _ => ⟨by simp [run], hs, rfl, fun _ => rfl, fun _ _ => rfl⟩
  | fail => exact fun objs p _ hs _ => ⟨by simp [run], hs, rfl, fun _ => rfl, fun _ _ => rfl⟩
  | look r rest ih => exact fun objs p ho hs hm => ih objs p ho hs hm
  | change r l rest ih => exact fun objs p ho _ _ => ho.elim
  | set k v rest ih =>
    intro objs p ho hs hm
    unfold run
    cases hk : objs[k]? with
    | none => exact ih objs p ho hs hm
    | some o =>
      obtain ⟨r, orig⟩ := o
      have hmem := List.mem_of_getElem? hk
      dsimp only
      cases hset : setLimit p r orig v with
      | none => exact ⟨by simp, hs, rfl, fun _ => rfl, fun _ _ => rfl⟩
      | some p1 =>
        dsimp only
        obtain ⟨h1, h2, _⟩ := set_same hset (hm _ hmem) hs
        have hsame : SameLimits (objs.map (·.1)) p p1 := same_mono h2 (by
          intro r' hr'
          rw [List.mem_singleton.1 hr']
          exact List.mem_map.2 ⟨_, hmem, rfl⟩)
        obtain ⟨a, b, c⟩ := ih objs p1 ho h1 (fun o h => (h2.2.1 o.1).trans (hm o h))
        exact ⟨a, b, same_trans hsame c⟩
  | scope r v inside rest ihi ihr =>
    intro objs p ho hs hm
    unfold run
    cases hr : p.limits r with
    | none => exact ⟨by simp, hs, rfl, fun _ => rfl, fun _ _ => rfl⟩
    | some orig =>
      dsimp only
      cases hset : setLimit p r orig v with
      | none => exact ⟨by simp, hs, rfl, fun _ => rfl, fun _ _ => rfl⟩
      | some p1 =>
        dsimp only
        have hmr : (p.limits r).map (·.max) = some orig.max := by rw [hr]; rfl
        obtain ⟨h1, h2, _⟩ := set_same hset hmr hs
        obtain ⟨a, b, c⟩ := ihi ((r, orig) :: objs) p1 ho.1 h1 (by
          intro o h
          rcases List.mem_cons.1 h with h | h
          · rw [h]; exact (h2.2.1 r).trans hmr
          · exact (h2.2.1 o.1).trans (hm o h))
        have hsame : SameLimits (r :: objs.map (·.1)) p (run inside ((r, orig) :: objs) p1).1 :=
          same_trans (same_mono h2 (by intro r' h; rw [List.mem_singleton.1 h]; exact List.mem_cons_self ..)) c
        rcases hrun : run inside ((r, orig) :: objs) p1 with ⟨p2, e, l⟩
        rw [hrun] at a b hsame
        dsimp only at a b hsame
        have hm2 : (p2.limits r).map (·.max) = some orig.max := (hsame.2.1 r).trans hmr
        obtain ⟨p3, h3⟩ := set_allowed hm2 (hs r orig hr)
        obtain ⟨b3, c3, d3⟩ := set_same h3 hm2 b
        have back : SameLimits (objs.map (·.1)) p p3 := by
          refine ⟨c3.1.trans hsame.1, fun r' => (c3.2.1 r').trans (hsame.2.1 r'), fun r' hr' => ?_⟩
          by_cases e : r' = r
          · rw [e, d3, hr]
          · rw [c3.2.2 r' (fun h => e (List.mem_singleton.1 h))]
            refine hsame.2.2 r' (fun h => ?_)
            rcases List.mem_cons.1 h with h | h
            · exact e h
            · exact hr' h
        cases e with
        | terminated => exact absurd rfl a
        | exception =>
          dsimp only
          rw [h3]
          exact ⟨by simp, b3, back⟩
        | normal =>
          dsimp only
          rw [h3]
          dsimp only
          obtain ⟨a4, b4, c4⟩ := ihr objs p3 ho.2 b3 (fun o h => (back.2.1 o.1).trans (hm o h))
          exact ⟨a4, b4, same_trans back c4⟩

/-- Limits that are changed by objects only are as before when the program has left the scopes, however they are nested, whatever is set and
wherever an exception is thrown; the destructors never end the process. -/
theorem C107_limits_partial (b : Program) (p : Process) (hb : OnlyObjects b) (hp : SoundLimits p) :
    (run b [] p).2.1 ≠ .terminated ∧ (run b [] p).1.privileged = p.privileged ∧ ∀ r, (run b [] p).1.limits r = p.limits r := by
  obtain ⟨a, _, c⟩ := run_same b [] p hb hp (fun _ h => by cases h)
  exact ⟨a, c.1, fun r => c.2.2 r (by simp)⟩

/-- In the scope the soft limit is the one that was asked for if it is not above the hard limit, and the other limits are as before;
otherwise the constructor throws and nothing has changed. -/
theorem C107_limits_inside (r v : Nat) (inside rest : Program) (objs : List (Nat × Limit)) (p : Process) (orig : Limit)
    (h : p.limits r = some orig) :
    (v ≤ orig.max → ∃ l, (run (.scope r v (.look r inside) rest) objs p).2.2 = some v :: l) ∧
      (∀ r' ≠ r, v ≤ orig.max → ∃ l, (run (.scope r v (.look r' inside) rest) objs p).2.2 = (p.limits r').map (·.cur) :: l) ∧
      (orig.max < v → run (.scope r v inside rest) objs p = (p, .exception, [])) := by
  have hin : v ≤ orig.max → setLimit p r orig v =
      some { p with limits := fun q => if q = r then some { orig with cur := v } else p.limits q } := by
    intro hv
    unfold setLimit sysSetrlimit
    rw [h]
    dsimp only
    rw [if_neg (by omega), if_neg (by omega)]
  have looks : ∀ r', v ≤ orig.max → ∃ l, (run (.scope r v (.look r' inside) rest) objs p).2.2 =
      ((if r' = r then some { orig with cur := v } else p.limits r').map (·.cur)) :: l := by
    intro r' hv
    unfold run
    rw [h]
    dsimp only
    rw [hin hv]
    dsimp only
    rw [run]
    rcases run inside ((r, orig) :: objs) { p with limits := fun q => if q = r then some { orig with cur := v } else p.limits q } with ⟨p2, e, l⟩
    cases e with
    | terminated => exact ⟨_, rfl⟩
    | exception =>
      dsimp only
      cases sysSetrlimit p2 r orig with
      | none => exact ⟨_, rfl⟩
      | some p3 => exact ⟨_, rfl⟩
    | normal =>
      dsimp only
      cases sysSetrlimit p2 r orig with
      | none => exact ⟨_, rfl⟩
      | some p3 => exact ⟨_, rfl⟩
  refine ⟨fun hv => ?_, fun r' hr' hv => ?_, fun hv => ?_⟩
  · obtain ⟨l, hl⟩ := looks r hv
    rw [if_pos rfl] at hl
    exact ⟨l, hl⟩
  · obtain ⟨l, hl⟩ := looks r' hv
    rw [if_neg hr'] at hl
    exact ⟨l, hl⟩
  · unfold run
    rw [h]
    dsimp only
    have : setLimit p r orig v = none := by
      unfold setLimit sysSetrlimit
      rw [h]
      dsimp only
      rw [if_pos hv]
    rw [this]

/-- Discrepancy: an object of a resource whose hard limit is lowered in its scope, by a process that may not raise it, cannot restore it: its
destructor throws and ends the process. -/
theorem C107_violated_hard_limit (r v : Nat) (l orig : Limit) (rest : Program) (objs : List (Nat × Limit)) (p : Process)
    (h : p.limits r = some orig) (hp : p.privileged = false) (hv : v ≤ orig.max) (hl : l.cur ≤ l.max) (hm : l.max < orig.max) :
    (run (.scope r v (.change r l .done) rest) objs p).2.1 = .terminated := by
  have hin : setLimit p r orig v =
      some { p with limits := fun q => if q = r then some { orig with cur := v } else p.limits q } := by
    unfold setLimit sysSetrlimit
    rw [h]
    dsimp only
    rw [if_neg (by omega), if_neg (by omega)]
  unfold run
  rw [h]
  dsimp only
  rw [hin]
  dsimp only
  rw [run, run]
  have h2 : sysSetrlimit { p with limits := fun q => if q = r then some { orig with cur := v } else p.limits q } r l =
      some { p with limits := fun q => if q = r then some l else if q = r then some { orig with cur := v } else p.limits q } := by
    unfold sysSetrlimit
    dsimp only
    rw [if_pos rfl]
    dsimp only
    rw [if_neg (by omega), if_neg (by omega)]
  rw [h2]
  dsimp only [Option.getD_some]
  have h3 : sysSetrlimit { p with limits := fun q => if q = r then some l else if q = r then some { orig with cur := v } else p.limits q } r orig =
      none := by
    unfold sysSetrlimit
    dsimp only
    rw [if_pos rfl]
    dsimp only
    split
    · rfl
    · rw [if_pos ⟨hm, hp⟩]
  rw [h3]

/-- The files that a process may open at once, and a file size. -/
def limits107 : Process := ⟨fun r => if r = 7 then some ⟨1024, 4096⟩ else if r = 1 then some ⟨100, 100⟩ else none, false⟩

theorem sound107 : SoundLimits limits107 := by
  intro r l h
  unfold limits107 at h
  dsimp only at h
  split at h
  · injection h with h; subst h; decide
  · split at h
    · injection h with h; subst h; decide
    · cases h

example : OnlyObjects (.scope 7 64 (.look 7 (.scope 7 16 (.look 7 (.set 1 32 (.look 7 .fail))) .done)) .done) ∧
    (run (.scope 7 64 (.look 7 (.scope 7 16 (.look 7 (.set 1 32 (.look 7 .fail))) .done)) .done) [] limits107).2 =
      (.exception, [some 64, some 16, some 32]) ∧
    (run (.scope 7 5000 .done .done) [] limits107).2.1 = .exception ∧
    (run (.scope 7 64 (.change 7 ⟨64, 64⟩ .done) .done) [] limits107).2.1 = .terminated := by
  refine ⟨?_, by decide +kernel, by decide +kernel, by decide +kernel⟩
  simp [OnlyObjects]

/-! ### Times -/

/-- The program neither closes the number nor gives it to another file. -/
def Keeps (fd : Nat) : Work → Prop
  | .done => True
  | .fail => True
  | .touch _ _ rest => Keeps fd rest
  | .close n rest => n ≠ fd ∧ Keeps fd rest
  | .open_ n _ rest => n ≠ fd ∧ Keeps fd rest
  | .scope _ inside rest => Keeps fd inside ∧ Keeps fd rest

theorem work_keeps (fd : Nat) (b : Work) : ∀ t, Keeps fd b → (work b t).1.open_ fd = t.open_ fd := by
  induction b with
  | done => exact fun t _ => rfl
  | fail => exact fun t _ => rfl
  | touch i ts rest ih => exact fun t h => ih _ h
  | close n rest ih => exact fun t h => (ih _ h.2).trans (by dsimp only; rw [if_neg (fun e => h.1 e.symm)])
  | open_ n i rest ih => exact fun t h => (ih _ h.2).trans (by dsimp only; rw [if_neg (fun e => h.1 e.symm)])
  | scope n inside rest ihi ihr =>
    intro t h
    unfold work
    cases t.open_ n with
    | none => rfl
    | some i =>
      dsimp only
      have hi := ihi t h.1
      rcases hw : work inside t with ⟨t1, e⟩
      rw [hw] at hi
      dsimp only at hi
      cases e with
      | terminated => exact hi
      | exception =>
        dsimp only
        cases t1.open_ n with
        | none => exact hi
        | some j => exact hi
      | normal =>
        dsimp only
        cases t1.open_ n with
        | none => exact hi
        | some j => exact (ihr _ h.2).trans hi

/-- The program never takes away the number of an object in scope. -/
def Careful : Work → Prop
  | .done => True
  | .fail => True
  | .touch _ _ rest => Careful rest
  | .close _ rest => Careful rest
  | .open_ _ _ rest => Careful rest
  | .scope fd inside rest => Keeps fd inside ∧ Careful inside ∧ Careful rest

theorem work_careful (b : Work) : ∀ t, Careful b → (work b t).2 ≠ .terminated := by
  induction b with
  | done => exact fun t _ => by simp [work]
  | fail => exact fun t _ => by simp [work]
  | touch i ts rest ih => exact fun t h => ih _ h
  | close n rest ih => exact fun t h => ih _ h
  | open_ n i rest ih => exact fun t h => ih _ h
  | scope n inside rest ihi ihr =>
    intro t h
    unfold work
    cases ho : t.open_ n with
    | none => simp
    | some i =>
      dsimp only
      have hi := ihi t h.2.1
      have hk := work_keeps n inside t h.1
      rcases hw : work inside t with ⟨t1, e⟩
      rw [hw] at hi hk
      dsimp only at hi hk
      rw [ho] at hk
      cases e with
      | terminated => exact absurd rfl hi
      | exception => dsimp only; rw [hk]; simp
      | normal => dsimp only; rw [hk]; exact ihr _ h.2.2

/-- When the scope of an object is left, normally or by an exception, the file has the times it had at its beginning, whatever was done to it
meanwhile and however objects are nested; the times of the other files are what they became in the scope, and no destructor ends the process. -/
theorem C107_times_partial (fd i : Nat) (inside : Work) (t : Table) (h : t.open_ fd = some i) (hk : Keeps fd inside) (hc : Careful inside) :
    (work (.scope fd inside .done) t).2 = (work inside t).2 ∧ (work (.scope fd inside .done) t).2 ≠ .terminated ∧
      (work (.scope fd inside .done) t).1.times i = t.times i ∧
      (∀ j ≠ i, (work (.scope fd inside .done) t).1.times j = (work inside t).1.times j) ∧
      ∀ n, (work (.scope fd inside .done) t).1.open_ n = (work inside t).1.open_ n := by
  have hi := work_careful inside t hc
  have hk' := work_keeps fd inside t hk
  rw [work, h]
  dsimp only
  rcases hw : work inside t with ⟨t1, e⟩
  rw [hw] at hi hk'
  dsimp only at hi hk'
  rw [h] at hk'
  cases e with
  | terminated => exact absurd rfl hi
  | exception =>
    dsimp only
    rw [hk']
    exact ⟨rfl, by simp, if_pos rfl, fun j hj => if_neg hj, fun _ => rfl⟩
  | normal =>
    dsimp only
    rw [hk']
    exact ⟨rfl, by simp [work], if_pos rfl, fun j hj => if_neg hj, fun _ => rfl⟩

/-- Discrepancy: `PreserveFileTimes` keeps the number of the file, not the file: if it is closed in the scope, the destructor throws and ends
the process. -/
theorem C107_violated_closed (fd i : Nat) (rest : Work) (t : Table) (h : t.open_ fd = some i) :
    (work (.scope fd (.close fd .done) rest) t).2 = .terminated := by
  rw [work, h]
  dsimp only
  rw [work, work]
  dsimp only
  rw [if_pos rfl]

/-- Discrepancy: and if the number is used again for another file, that file gets the times of the first, which keeps the times of now. -/
theorem C107_violated_reused (fd i j : Nat) (now : Times) (t : Table) (h : t.open_ fd = some i) (hj : j ≠ i) :
    (work (.scope fd (.touch i now (.close fd (.open_ fd j .done))) .done) t).1.times j = t.times i ∧
      (work (.scope fd (.touch i now (.close fd (.open_ fd j .done))) .done) t).1.times i = now := by
  rw [work, h]
  dsimp only
  rw [work, work, work, work]
  dsimp only
  rw [if_pos rfl]
  dsimp only
  rw [work]
  dsimp only
  rw [if_pos rfl, if_neg (fun e => hj e.symm), if_pos rfl]
  exact ⟨rfl, rfl⟩

example : Keeps 3 (.touch 10 (5, 5) (.scope 3 (.touch 10 (6, 6) .fail) .done)) ∧ Careful (.touch 10 (5, 5) (.scope 3 (.touch 10 (6, 6) .fail) .done)) := by
  simp [Keeps, Careful]

/-! ### Temporary files -/

/-- At the end of the life of a `Tempfile` the file at its path is removed, and nothing else; it does not matter if it has been removed
already, and nothing is removed if that is not wanted. -/
theorem C107_tempfile_partial (rmdir : FS → Bytes → Except Files.Errno FS) (path : Bytes) (fs : FS) :
    (∀ d w i, Place fs path d w → fs.Entry d w i → ¬ fs.isDir i → ∃ fs', endTempfile rmdir true path fs = .ok fs' ∧ fs.SameBut fs' d ∧
      fs'.NoEntry d w ∧ ∀ v j, v ≠ w → (fs'.Entry d v j ↔ fs.Entry d v j)) ∧
    (Absent fs fs.cwd false path → endTempfile rmdir true path fs = .ok fs) ∧
    endTempfile rmdir false path fs = .ok fs := by
  refine ⟨fun d w i hp he hd => ?_, fun ha => ?_, rfl⟩
  · obtain ⟨fs', h1, h2⟩ := C104_unlink fs path d w i hp he hd
    refine ⟨fs', ?_, h2⟩
    unfold Files.unlinkIfExists at h1
    unfold endTempfile sysRemove
    rw [if_pos rfl]
    cases hu : Files.sysUnlink fs path with
    | ok fs'' =>
      rw [hu] at h1
      injection h1 with _ h1
      rw [h1]
    | error e => rw [hu] at h1; cases e <;> cases h1
  · have h1 := (C104_unlink_missing fs path).1.2 ha
    unfold Files.unlinkIfExists at h1
    unfold endTempfile sysRemove
    rw [if_pos rfl]
    cases hu : Files.sysUnlink fs path with
    | ok fs'' => rw [hu] at h1; cases h1
    | error e => rw [hu] at h1; cases e <;> first | rfl | cases h1

theorem entry_more {fs : FS} {d i : Ino} {w : Bytes} (hn : fs.NoEntry d w) {d' j : Ino} {v : Bytes} (h : fs.Entry d' v j) :
    (Files.update fs d fun es => (w, i) :: es).Entry d' v j := by
  obtain ⟨es, h1, h2⟩ := h
  by_cases e : d' = d
  · subst e
    refine ⟨_, Files.update_entries fs d' _ es h1, ?_⟩
    obtain ⟨es', h3, h4⟩ := hn
    rw [h1] at h3
    injection h3 with h3
    subst h3
    rw [List.lookup_cons]
    by_cases ev : v = w
    · subst ev; rw [h2] at h4; cases h4
    · rw [beq_eq_false_iff_ne.2 ev]; exact h2
  · exact ⟨es, by rw [Files.entries_other _ _ _ _ e]; exact h1, h2⟩

theorem target_more {fs : FS} {d i : Ino} {w : Bytes} (j : Ino) (t : Bytes) :
    (Files.update fs d fun es => (w, i) :: es).Target j t ↔ fs.Target j t := by
  by_cases e : j = d
  · subst e
    unfold FS.Target Files.update
    split
    · rename_i es he
      dsimp only
      rw [if_pos rfl]
      dsimp only
      rw [he]
      constructor <;> rintro ⟨c, cs, _, h⟩ <;> cases h
    · rfl
  · unfold FS.Target
    rw [Files.update_node _ _ _ _ e]

theorem walk_more {fs : FS} {d i : Ino} {w : Bytes} (hn : fs.NoEntry d w) {follow : Bool} {n : Nat} {a j : Ino} {ws vs : List Bytes}
    (h : Walk fs follow n a ws j vs) : Walk (Files.update fs d fun es => (w, i) :: es) follow n a ws j vs := by
  have hstart : ∀ a t, (Files.update fs d fun es => (w, i) :: es).start a t = fs.start a t := by
    intro a t
    unfold FS.start
    rw [(Files.update_root fs d _).1]
  induction h with
  | stay d ws => exact .stay d ws
  | name n d' i' j v ws vs he ht _ ih =>
    refine .name n d' i' j v ws vs (entry_more hn he) ?_ ih
    rcases ht with ht | ht
    · exact .inl fun t h => ht t ((target_more i' t).1 h)
    · exact .inr ht
  | link n d' i' j v t ws us vs he ht hl hr _ ih =>
    exact .link n d' i' j v t ws us vs (entry_more hn he) ((target_more i' t).2 ht) hl hr (by rw [hstart]; exact ih)

/-- A `Tempfile` has a name that did not exist before, and there is a file of this name while it lives; when it ends, and the program has not
touched the file system meanwhile, every name means what it meant before. -/
theorem C107_tempfile_life (rmdir : FS → Bytes → Except Files.Errno FS) (fs fs1 : FS) (pre six path : Bytes) (i : Ino)
    (hi : (fs.node i).kind = .reg) (h : mkstemp fs pre six i = .ok (path, fs1)) :
    path = pre ++ six ∧ Absent fs fs.cwd false path ∧ (∃ d w, Place fs1 path d w ∧ fs1.Entry d w i ∧ fs.NoEntry d w) ∧
      ∃ fs2, endTempfile rmdir true path fs1 = .ok fs2 ∧ fs2.cwd = fs.cwd ∧ fs2.root = fs.root ∧
        ∀ d w j, fs2.Entry d w j ↔ fs.Entry d w j := by
  unfold mkstemp at h
  cases hp : Files.parent fs (pre ++ six) with
  | error e => rw [hp] at h; cases h
  | ok dw =>
    obtain ⟨d, w⟩ := dw
    rw [hp] at h
    dsimp only at h
    cases he : Files.entry fs d w with
    | ok j => rw [he] at h; cases h
    | error e =>
      rw [he] at h
      cases e <;> first | (cases h; done) | skip
      injection h with h
      injection h with hpath hfs
      have hn := Files.entry_enoent.1 he
      obtain ⟨ws, n, hr, hle, hw⟩ := Files.parent_ok.1 hp
      have habs : Absent fs fs.cwd false (pre ++ six) := by
        refine Files.resolve_enoent.1 ?_
        rw [Files.resolve_parent, hp]
        exact he
      obtain ⟨es, hes, hl⟩ := hn
      have hn : fs.NoEntry d w := ⟨es, hes, hl⟩
      have hu := Files.update_entries fs d (fun es => (w, i) :: es) es hes
      have hplace : Place fs1 path d w := by
        refine ⟨ws, n, hpath ▸ hr, hle, ?_⟩
        rw [← hfs, ← hpath]
        have := walk_more (i := i) hn hw
        unfold FS.start at this ⊢
        rw [(Files.update_root fs d _).1, (Files.update_root fs d _).2]
        exact this
      have hentry : fs1.Entry d w i := ⟨_, hfs ▸ hu, by rw [List.lookup_cons, beq_self_eq_true]⟩
      have hreg : ¬ fs1.isDir i := by
        rintro ⟨es', h'⟩
        rw [← hfs] at h'
        by_cases e : i = d
        · subst e
          obtain ⟨es'', hd⟩ := Files.entries_dir hes
          rw [hi] at hd
          cases hd
        · rw [Files.update_node _ _ _ _ e, hi] at h'
          cases h'
      obtain ⟨fs2, h2, hsame, hno, hothers⟩ := (C107_tempfile_partial rmdir path fs1).1 d w i hplace hentry hreg
      refine ⟨hpath.symm, hpath ▸ habs, ⟨d, w, hplace, hentry, hn⟩, fs2, h2, ?_, ?_, fun d' v j => ?_⟩
      · rw [hsame.2.1, ← hfs, (Files.update_root fs d _).2]
      · rw [hsame.1, ← hfs, (Files.update_root fs d _).1]
      · by_cases ed : d' = d
        · subst ed
          by_cases ev : v = w
          · subst ev
            constructor
            · rintro ⟨es1, a1, b1⟩
              obtain ⟨es2, a2, b2⟩ := hno
              rw [a1] at a2
              injection a2 with a2
              rw [a2, b2] at b1
              cases b1
            · rintro ⟨es1, a1, b1⟩
              rw [hes] at a1
              injection a1 with a1
              rw [← a1, hl] at b1
              cases b1
          · rw [hothers v j ev]
            constructor
            · rintro ⟨es1, a1, b1⟩
              rw [← hfs, hu] at a1
              injection a1 with a1
              rw [← a1, List.lookup_cons, beq_eq_false_iff_ne.2 ev] at b1
              exact ⟨es, hes, b1⟩
            · intro h
              exact hfs ▸ entry_more hn h
        · unfold FS.Entry FS.entries
          rw [hsame.2.2.1 d' ed, ← hfs, Files.update_node _ _ _ _ ed]

/-- Discrepancy: a `Tempfile` keeps the path it was given, which is relative for the default constructor: if the program changes its directory
the file stays, and a file of the same name in the new directory is removed instead. -/
theorem C107_violated_chdir (rmdir : FS → Bytes → Except Files.Errno FS) (name : Bytes) (fs : FS) (d c : Ino) (i j : Ino) (hn : name ≠ [])
    (hs : 47 ∉ name) (hd : d ≠ c) (he : fs.Entry d name i) (hj : fs.Entry c name j) (hf : ¬ fs.isDir j) :
    ∃ fs', endTempfile rmdir true name { fs with cwd := c } = .ok fs' ∧ fs'.Entry d name i ∧ fs'.NoEntry c name := by
  have hplace : Place { fs with cwd := c } name c name := by
    refine ⟨[], 0, ?_, Nat.zero_le _, ?_⟩
    · have := Reads.name name [] [] hn hs (.inl rfl) .nothing
      rw [List.append_nil] at this
      exact this
    · have : FS.start { fs with cwd := c } c name = c := by
        unfold FS.start
        rw [if_neg]
        intro h
        exact hs (List.mem_of_mem_head? h)
      rw [this]
      exact .stay c []
  obtain ⟨fs', h1, h2, h3, _⟩ := (C107_tempfile_partial rmdir name { fs with cwd := c }).1 c name j hplace hj hf
  refine ⟨fs', h1, ?_, h3⟩
  obtain ⟨es, a, b⟩ := he
  refine ⟨es, ?_, b⟩
  unfold FS.entries at a ⊢
  rw [h2.2.2.1 d hd]
  exact a

/-- Discrepancy: if the file cannot be removed, because its directory may not be searched any more, the destructor ends the process. -/
theorem C107_violated_remove (rmdir : FS → Bytes → Except Files.Errno FS) (path : Bytes) (fs : FS) (d : Ino) (w : Bytes) (hp : Place fs path d w)
    (hd : fs.isDir d) (hx : (fs.node d).exec = false) : endTempfile rmdir true path fs = .terminate := by
  obtain ⟨es, hd⟩ := hd
  unfold endTempfile sysRemove Files.sysUnlink
  rw [if_pos rfl, Files.parent_ok.2 hp]
  dsimp only
  have : Files.entry fs d w = .error .eacces := by
    unfold Files.entry
    rw [hd]
    dsimp only
    rw [hx]
    rfl
  rw [this]

/-- The inode 3 is used for the new file. -/
example : (match mkstemp sample104 (str "bin/t") (str "abcdef") 3 with
    | .ok (p, fs1) => decide (p = str "bin/tabcdef" ∧ Files.isreg fs1 p = .ok true ∧
        (match endTempfile (fun _ _ => .error .ebusy) true p fs1 with | .ok fs2 => decide (Files.exists_ fs2 p = .ok false) | _ => false) = true)
    | _ => false) = true := by decide +kernel
example : (match mkstemp sample104 (str "bin/") (str "ls") 3 with | .throws _ => true | _ => false) = true := by decide +kernel

/-! ### Locks -/

/-- A lock that is not waited for is had exactly if the system gave it, and refused exactly if somebody else has it; `ofd_setlkw` has the
lock exactly if the system gave it after nothing but signals, of which there may be any number if it retries and none if it does not; it
answers false only for a signal, and never if it retries; other errors are thrown. -/
theorem C107_locks (answers : List Answer) (a : Answer) :
    (ofdSetlk a = .ok true ↔ a = .done) ∧ (ofdSetlk a = .ok false ↔ a = .eagain ∨ a = .eacces) ∧
    (ofdSetlkw true answers = some (.ok true) ↔ ∃ n rest, answers = List.replicate n .eintr ++ .done :: rest) ∧
    ofdSetlkw true answers ≠ some (.ok false) ∧
    (ofdSetlkw true answers = none ↔ ∀ x ∈ answers, x = .eintr) ∧
    (ofdSetlkw false answers = some (.ok true) ↔ answers.head? = some .done) ∧
    (ofdSetlkw false answers = some (.ok false) ↔ answers.head? = some .eintr) ∧
    ∀ retry, ofdSetlkw retry answers ≠ none → ofdSetlkw retry answers = some (.ok true) ∨ ofdSetlkw retry answers = some (.ok false) ∨
      ofdSetlkw retry answers = some (.throws Files.systemError) := by
  refine ⟨by cases a <;> simp [ofdSetlk], by cases a <;> simp [ofdSetlk], ?_, ?_, ?_, ?_, ?_, ?_⟩
  · induction answers with
    | nil =>
      constructor
      · intro h; cases h
      · rintro ⟨n, rest, h⟩
        cases n <;> cases h
    | cons x xs ih =>
      cases x with
      | done => exact ⟨fun _ => ⟨0, xs, rfl⟩, fun _ => rfl⟩
      | eintr =>
        rw [show ofdSetlkw true (.eintr :: xs) = ofdSetlkw true xs from rfl, ih]
        constructor
        · rintro ⟨n, rest, h⟩
          exact ⟨n + 1, rest, by rw [h]; rfl⟩
        · rintro ⟨n, rest, h⟩
          cases n with
          | zero => cases h
          | succ n =>
            rw [List.replicate_succ, List.cons_append] at h
            injection h with _ h
            exact ⟨n, rest, h⟩
      | eagain | eacces | other =>
        constructor
        · intro h; cases h
        · rintro ⟨n, rest, h⟩
          cases n <;> cases h
  · induction answers with
    | nil => intro h; cases h
    | cons x xs ih =>
      cases x with
      | eintr => exact ih
      | _ => intro h; cases h
  · induction answers with
    | nil => exact ⟨fun _ _ h => (by cases h), fun _ => rfl⟩
    | cons x xs ih =>
      cases x with
      | eintr =>
        rw [show ofdSetlkw true (.eintr :: xs) = ofdSetlkw true xs from rfl, ih]
        simp
      | _ => exact ⟨fun h => (by cases h), fun h => (by cases h _ (List.mem_cons_self ..))⟩
  · cases answers with
    | nil => exact ⟨fun h => (by cases h), fun h => (by cases h)⟩
    | cons x xs => cases x <;> simp [ofdSetlkw]
  · cases answers with
    | nil => exact ⟨fun h => (by cases h), fun h => (by cases h)⟩
    | cons x xs => cases x <;> simp [ofdSetlkw]
  · intro retry
    induction answers with
    | nil => intro h; exact absurd rfl h
    | cons x xs ih =>
      cases x with
      | done => exact fun _ => .inl rfl
      | eintr =>
        cases retry with
        | true => exact ih
        | false => exact fun _ => .inr (.inl rfl)
      | _ => exact fun _ => .inr (.inr rfl)

end Msat.Props
