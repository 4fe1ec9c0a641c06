import Verif.Spec.Subprocess

namespace Msat.Props
open Subprocess SubprocessSpec

/-- What the object knows about the child. -/
def Known (pid : Nat) (c : Child) (k : Kernel) : Prop :=
  c.pid = pid ∧ match k with
    | .reaped s => c.terminated = true ∧ c.returncode = s
    | _ => c.terminated = false

theorem wexitstatus_eq (s : Nat) : wexitstatus s = exitCode s := by
  unfold wexitstatus exitCode
  rw [Nat.shiftRight_eq_div_pow, show (0xff : Nat) = 2 ^ 8 - 1 from rfl, Nat.and_two_pow_sub_one_eq_mod]

theorem poll_known {pid : Nat} (hp : pid ≠ 0) {c : Child} {k : Kernel} (h : Known pid c k) :
    Known pid (poll c k).2.1 (poll c k).2.2 ∧ statusOf (poll c k).2.2 = statusOf k ∧
    (poll c k).1 = .returns (statusOf k).isSome := by
  obtain ⟨p, r, t⟩ := c
  obtain ⟨h1, h2⟩ := h
  dsimp only at h1
  subst h1
  cases k with
  | running => simp_all [poll, waitpidNohang, Known, statusOf, Ne.symm hp]
  | zombie s => simp_all [poll, waitpidNohang, Known, statusOf]
  | reaped s => simp_all [poll, Known, statusOf]

theorem wait_known {pid : Nat} (hp : pid ≠ 0) {c : Child} {k : Kernel} (m : Meanwhile) (h : Known pid c k) :
    Known pid (wait c k m).2.1 (wait c k m).2.2 ∧
    (∀ s, statusOf k = some s → statusOf (wait c k m).2.2 = some s ∧ (wait c k m).1 = .returns (exitCode s)) ∧
    (∀ n, (wait c k m).1 = .returns n → ∃ s, statusOf (wait c k m).2.2 = some s ∧ n = exitCode s ∧
      (statusOf k = some s ∨ m = .exits s)) := by
  obtain ⟨p, r, t⟩ := c
  obtain ⟨h1, h2⟩ := h
  dsimp only at h1
  subst h1
  cases k with
  | running => cases m <;> simp_all [wait, Known, statusOf, wexitstatus_eq]
  | zombie s => simp_all [wait, Known, statusOf, wexitstatus_eq]
  | reaped s => simp_all [wait, Known, statusOf, Child.code, wexitstatus_eq]

theorem loop_known {pid : Nat} (hp : pid ≠ 0) : ∀ (env : List Wake) (c : Child) (k : Kernel) (sec nsec t : Int),
    Known pid c k → c.terminated = false →
    let r := waitLoop c k sec nsec t env
    Known pid r.2.1.1 r.2.1.2 ∧
    (∀ s, statusOf k = some s → statusOf r.2.1.2 = some s ∧ r.1 = .returns true ∧ r.2.2 = t) ∧
    (∀ b, r.1 = .returns b → b = (statusOf r.2.1.2).isSome) ∧
    (0 ≤ sec ∧ 0 ≤ nsec → t ≤ r.2.2 ∧ r.2.2 ≤ t + (sec * 1000000000 + nsec) ∧
      (r.1 = .returns false → r.2.2 = t + (sec * 1000000000 + nsec))) ∧
    (0 ≤ sec ∧ 0 ≤ nsec ∧ nsec < 1000000000 → r.1 ≠ .throws) := by
  intro env
  induction env with
  | nil =>
    intro c k sec nsec t h ht r
    obtain ⟨p, r', t'⟩ := c
    obtain ⟨h1, h2⟩ := h
    dsimp only at h1 ht
    subst h1 ht
    have hr : r = waitLoop ⟨p, r', false⟩ k sec nsec t [] := rfl
    rw [waitLoop.eq_def] at hr
    cases k with
    | running =>
      simp only [waitpidNohang, Nat.lt_irrefl, if_false] at hr
      split at hr
      · rw [hr]; rename_i hz; simp [Known, statusOf, hz.1, hz.2]
      · split at hr <;> rw [hr] <;> simp [Known, statusOf] <;> omega
    | zombie s =>
      simp only [waitpidNohang, Nat.pos_of_ne_zero hp, if_true] at hr
      rw [hr]; simp [Known, statusOf]; omega
    | reaped s => simp at h2
  | cons w env ih =>
    intro c k sec nsec t h ht r
    obtain ⟨p, r', t'⟩ := c
    obtain ⟨h1, h2⟩ := h
    dsimp only at h1 ht
    subst h1 ht
    have hr : r = waitLoop ⟨p, r', false⟩ k sec nsec t (w :: env) := rfl
    rw [waitLoop.eq_def] at hr
    cases k with
    | running =>
      simp only [waitpidNohang, Nat.lt_irrefl, if_false] at hr
      have ap : ∀ x, Known p ⟨p, r', false⟩ (Wake.apply .running x) := by
        intro x; cases x <;> exact ⟨rfl, rfl⟩
      split at hr
      · rw [hr]; rename_i hz; simp [Known, statusOf, hz.1, hz.2]
      · split at hr
        · rw [hr]; simp [Known, statusOf]; omega
        · rename_i hneg
          cases w with
          | expired x =>
            dsimp only at hr
            obtain ⟨a1, _, a3, a4, a5⟩ := ih _ _ 0 0 (t + sec * 1000000000 + nsec) (ap x) rfl
            obtain ⟨a4, a6, a7⟩ := a4 ⟨by decide, by decide⟩
            have a5 := a5 ⟨by decide, by decide, by decide⟩
            rw [← hr] at a1 a3 a4 a5 a6 a7
            exact ⟨a1, by simp [statusOf], a3, fun _ => ⟨by omega, by omega, fun q => by have := a7 q; omega⟩, fun _ => a5⟩
          | signal x left =>
            dsimp only at hr
            have hpos : 0 ≤ sec * 1000000000 + nsec := by omega
            have hl : 0 ≤ min (left : Int) (sec * 1000000000 + nsec) ∧
                min (left : Int) (sec * 1000000000 + nsec) ≤ sec * 1000000000 + nsec := by omega
            generalize min (left : Int) (sec * 1000000000 + nsec) = l at hr hl
            obtain ⟨a1, _, a3, a4, a5⟩ := ih _ _ (l / 1000000000) (l % 1000000000) (t + (sec * 1000000000 + nsec - l)) (ap x) rfl
            obtain ⟨a4, a6, a7⟩ := a4 ⟨by omega, by omega⟩
            have a5 := a5 ⟨by omega, by omega, by omega⟩
            rw [← hr] at a1 a3 a4 a5 a6 a7
            exact ⟨a1, by simp [statusOf], a3, fun _ => ⟨by omega, by omega, fun q => by have := a7 q; omega⟩, fun _ => a5⟩
    | zombie s =>
      simp only [waitpidNohang, Nat.pos_of_ne_zero hp, if_true] at hr
      rw [hr]; simp [Known, statusOf]; omega
    | reaped s => simp at h2

theorem waitFor_known {pid : Nat} (hp : pid ≠ 0) {c : Child} {k : Kernel} (ms : Int) (env : List Wake) (h : Known pid c k) :
    Known pid (waitFor c k ms env).2.1.1 (waitFor c k ms env).2.1.2 ∧
    (∀ s, statusOf k = some s → statusOf (waitFor c k ms env).2.1.2 = some s) := by
  unfold waitFor
  rw [if_neg (by rw [h.1]; exact hp)]
  by_cases ht : c.terminated = true
  · rw [if_pos ht]; exact ⟨h, fun _ h => h⟩
  · have ht' : c.terminated = false := by simpa using ht
    rw [if_neg ht]
    obtain ⟨a1, a2, _⟩ := loop_known hp env c k (ms.tdiv 1000) (ms.tmod 1000 * 1000000) 0 h ht'
    exact ⟨a1, fun s hs => (a2 s hs).1⟩

theorem step_known {pid : Nat} (hp : pid ≠ 0) (s : Child × Kernel) (e : Event) (h : Known pid s.1 s.2) :
    Known pid (step s e).1 (step s e).2 := by
  obtain ⟨c, k⟩ := s
  cases e with
  | exits st =>
    show Known pid c (k.exit st)
    cases k <;> exact h
  | poll => exact (poll_known hp h).1
  | wait m => exact (wait_known hp m h).1
  | waitFor ms env => exact (waitFor_known hp ms env h).1

theorem after_known {pid : Nat} (hp : pid ≠ 0) (h : List Event) : Known pid (after pid h).1 (after pid h).2 := by
  unfold after
  have : ∀ (s : Child × Kernel), Known pid s.1 s.2 → Known pid (h.foldl step s).1 (h.foldl step s).2 := by
    induction h with
    | nil => intro s hs; exact hs
    | cons e h ih => intro s hs; exact ih _ (step_known hp s e hs)
  exact this _ ⟨rfl, rfl⟩

/-- Polling tells whether the child has terminated, after every history. -/
theorem C42_poll (pid : Nat) (hp : pid ≠ 0) (h : List Event) :
    (poll (after pid h).1 (after pid h).2).1 = .returns (statusOf (after pid h).2).isSome :=
  (poll_known hp (after_known hp h)).2.2

/-- Waiting returns the exit code of a child that has terminated, after every history and as often as it is
called; it does not return before. -/
theorem C42_wait (pid : Nat) (hp : pid ≠ 0) (h : List Event) (m : Meanwhile) :
    let c := (after pid h).1
    let k := (after pid h).2
    (∀ s, statusOf k = some s → (wait c k m).1 = .returns (exitCode s)) ∧
    (∀ n, (wait c k m).1 = .returns n → ∃ s, n = exitCode s ∧ (statusOf k = some s ∨ m = .exits s)) := by
  obtain ⟨_, h2, h3⟩ := wait_known hp m (after_known hp h)
  exact ⟨fun s hs => (h2 s hs).2, fun n hn => by
    obtain ⟨s, _, h5, h6⟩ := h3 n hn
    exact ⟨s, h5, h6⟩⟩

/-- The status that a child has terminated with never changes, and once a call has reported termination it is
the raw return code of the object; until then `terminated()` is false. -/
theorem C42_status (pid : Nat) (hp : pid ≠ 0) (h : List Event) :
    ((after pid h).1.terminated = true → statusOf (after pid h).2 = some (after pid h).1.returncode) ∧
    (∀ e s, statusOf (after pid h).2 = some s → statusOf (after pid (h ++ [e])).2 = some s) ∧
    (statusOf (after pid h).2 = none → (after pid h).1.terminated = false) := by
  have hk := after_known hp h
  generalize hs : after pid h = s at hk ⊢
  obtain ⟨c, k⟩ := s
  refine ⟨?_, ?_, ?_⟩
  · intro ht
    cases k with
    | running => rw [hk.2] at ht; cases ht
    | zombie s => rw [hk.2] at ht; cases ht
    | reaped s => show some s = _; rw [hk.2.2]
  · intro e st hst
    have he : after pid (h ++ [e]) = step (c, k) e := by
      rw [← hs]; unfold after; rw [List.foldl_append]; rfl
    rw [he]
    cases e with
    | exits x =>
      show statusOf (k.exit x) = some st
      cases k with
      | running => cases hst
      | zombie s => exact hst
      | reaped s => exact hst
    | poll => exact ((poll_known hp hk).2.1).trans hst
    | wait m => exact ((wait_known hp m hk).2.1 st hst).1
    | waitFor ms env => exact (waitFor_known hp ms env hk).2 st hst
  · intro hn
    cases k with
    | running => exact hk.2
    | zombie s => cases hn
    | reaped s => cases hn

/-- The timed wait, for a child whose termination has not been reported yet: it returns true at once if the child
has terminated, and what it returns is true if and only if the child has terminated when it returns. -/
theorem C42_timed_wait_partial (pid : Nat) (hp : pid ≠ 0) (h : List Event) (ms : Int) (env : List Wake)
    (ht : (after pid h).1.terminated = false) :
    let r := waitFor (after pid h).1 (after pid h).2 ms env
    (∀ s, statusOf (after pid h).2 = some s → r.1 = .returns true ∧ r.2.2 = 0) ∧
    (∀ b, r.1 = .returns b → b = (statusOf r.2.1.2).isSome) := by
  have hk := after_known hp h
  intro r
  have hr : r = waitLoop (after pid h).1 (after pid h).2 (ms.tdiv 1000) (ms.tmod 1000 * 1000000) 0 env := by
    show waitFor _ _ _ _ = _
    unfold waitFor
    rw [if_neg (by rw [hk.1]; exact hp), if_neg (by rw [ht]; decide)]
  rw [hr]
  obtain ⟨_, a2, a3, _⟩ := loop_known hp env _ _ (ms.tdiv 1000) (ms.tmod 1000 * 1000000) 0 hk ht
  exact ⟨fun s hs => (a2 s hs).2, a3⟩

/-- The timed wait sleeps at most as long as asked, exactly so when it gives up, also when signals interrupt it;
and it does not throw. -/
theorem C42_timed_wait_duration (pid : Nat) (hp : pid ≠ 0) (h : List Event) (ms : Int) (env : List Wake)
    (ht : (after pid h).1.terminated = false) (hms : 0 ≤ ms) :
    let r := waitFor (after pid h).1 (after pid h).2 ms env
    0 ≤ r.2.2 ∧ r.2.2 ≤ ms * 1000000 ∧ (r.1 = .returns false → r.2.2 = ms * 1000000) ∧ r.1 ≠ .throws := by
  have hk := after_known hp h
  intro r
  have hr : r = waitLoop (after pid h).1 (after pid h).2 (ms.tdiv 1000) (ms.tmod 1000 * 1000000) 0 env := by
    show waitFor _ _ _ _ = _
    unfold waitFor
    rw [if_neg (by rw [hk.1]; exact hp), if_neg (by rw [ht]; decide)]
  rw [hr]
  obtain ⟨_, _, _, a4, a5⟩ := loop_known hp env _ _ (ms.tdiv 1000) (ms.tmod 1000 * 1000000) 0 hk ht
  rw [Int.tdiv_eq_ediv_of_nonneg hms, Int.tmod_eq_emod_of_nonneg hms] at a4 a5 ⊢
  obtain ⟨a4, a6, a7⟩ := a4 ⟨by omega, by omega⟩
  exact ⟨a4, by omega, fun q => by have := a7 q; omega, a5 ⟨by omega, by omega, by omega⟩⟩

/-- Once the termination of a child with exit code 0 has been reported, the timed wait says that it has not
terminated: the exit code is returned in place of `true`. -/
theorem C42_violated_timed_wait (pid : Nat) (hp : pid ≠ 0) (ms : Int) (env : List Wake) :
    let s := after pid [.exits 0, .poll]
    statusOf s.2 = some 0 ∧ s.1.terminated = true ∧ (waitFor s.1 s.2 ms env).1 = .returns false := by
  have h1 : after pid [.exits 0, .poll] = (⟨pid, 0, true⟩, .reaped 0) := by
    simp [after, step, Kernel.exit, poll, waitpidNohang, hp]
  rw [h1]
  refine ⟨rfl, rfl, ?_⟩
  simp [waitFor, hp, Child.code, wexitstatus]

/-- A child killed by a signal (9) is reported to have exited with code 0, like one that succeeded: only the raw
return code tells the difference. -/
theorem C42_violated_killed (pid : Nat) (hp : pid ≠ 0) :
    let s := after pid [.exits 9]
    (wait s.1 s.2 .nothing).1 = .returns 0 ∧ (wait s.1 s.2 .nothing).2.1.returncode = 9 := by
  have h1 : after pid [.exits 9] = (⟨pid, 0, false⟩, .zombie 9) := rfl
  rw [h1]
  simp [wait, hp, wexitstatus]

/-- A history: a poll, a timed wait that expires, another during which the child exits with code 3. -/
example : after 100 [.poll, .waitFor 5 [.expired none], .waitFor 1500 [.signal (some 768) 1000000000]] = (⟨100, 768, true⟩, .reaped 768) ∧
    exitCode 768 = 3 ∧ (after 100 [.poll, .waitFor 5 [.expired none]]).1.terminated = false := by decide

end Msat.Props
