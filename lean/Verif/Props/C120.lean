import Verif.Spec.Signals
import Verif.Lemmas.RecordUse
import Verif.Lemmas.RecordDetermine
import Verif.Lemmas.Text
import Mathlib.Tactic.SplitIfs

namespace Msat.Props
open Msat Signals SignalsSpec
open Msat.Subprocess (Kernel Result wexitstatus)

/-! ### Who gets a signal -/

theorem only_one {f : Proc → Nat} {l : List Proc} (h : (l.map f).Nodup) {p : Proc} (hp : p ∈ l) : l.filter (fun q => f q == f p) = [p] := by
  induction l with
  | nil => exact absurd hp (by simp)
  | cons q l ih =>
    rw [List.map_cons, List.nodup_cons] at h
    rcases List.mem_cons.1 hp with rfl | h1
    · rw [List.filter_cons_of_pos (by simp), List.filter_eq_nil_iff.2]
      intro r hr e
      exact h.1 (List.mem_map.2 ⟨r, hr, by simpa using e⟩)
    · rw [List.filter_cons_of_neg, ih h.2 h1]
      intro e
      exact h.1 (List.mem_map.2 ⟨p, h1, (by simpa using e : f q = f p).symm⟩)

theorem same_of {f : Proc → Nat} {l : List Proc} (h : (l.map f).Nodup) {p q : Proc} (hp : p ∈ l) (hq : q ∈ l) (e : f p = f q) : p = q := by
  have h1 := only_one h hp
  have h2 := only_one h hq
  rw [e] at h1
  exact List.singleton_inj.1 (h1.symm.trans h2)

/-- What always holds. -/
structure Fine (w : World) : Prop where
  pids : (w.procs.map Proc.pid).Nodup
  serials : (w.procs.map Proc.serial).Nodup
  numbered : ∀ p ∈ w.procs, p.pid ≠ 0 ∧ p.serial < w.next
  program : ∃ p ∈ w.procs, p.serial = w.self ∧ p.group = w.group
  older : w.self < w.next
  other : w.self ∉ w.mine
  mine : ∀ s ∈ w.mine, s < w.next
  unstarted : w.object.pid = 0 → w.mine = [] ∧ w.object.terminated = false
  started : w.object.pid ≠ 0 → ∃ b, w.mine.getLast? = some b ∧
    (w.object.terminated = false → ∃ p ∈ w.procs, p.serial = b ∧ p.pid = w.object.pid)

theorem fine_initial {procs : List Proc} {next self group : Nat} (h : System procs next self group) : Fine (initial procs next self group) := by
  obtain ⟨p, hp, h1, h2⟩ := h.program
  have ho : self < next := h1 ▸ (h.numbered p hp).2
  exact ⟨h.pids, h.serials, h.numbered, ⟨p, hp, h1, h2⟩, ho, by simp [initial], by simp [initial],
    fun _ => ⟨rfl, rfl⟩, fun e => absurd rfl e⟩

theorem fine_add {w : World} (h : Fine w) {pid group : Nat} (h0 : pid ≠ 0) (hu : w.unused pid) :
    ((w.procs ++ [Proc.mk w.next pid group none]).map Proc.pid).Nodup ∧ ((w.procs ++ [Proc.mk w.next pid group none]).map Proc.serial).Nodup ∧
    (∀ p ∈ w.procs ++ [Proc.mk w.next pid group none], p.pid ≠ 0 ∧ p.serial < w.next + 1) := by
  refine ⟨?_, ?_, ?_⟩
  · rw [List.map_append, List.nodup_append]
    refine ⟨h.pids, by simp, ?_⟩
    intro a ha b hb e
    obtain ⟨p, hp, rfl⟩ := List.mem_map.1 ha
    rw [List.map_singleton, List.mem_singleton] at hb
    exact hu p hp (e.trans hb)
  · rw [List.map_append, List.nodup_append]
    refine ⟨h.serials, by simp, ?_⟩
    intro a ha b hb e
    obtain ⟨p, hp, rfl⟩ := List.mem_map.1 ha
    rw [List.map_singleton, List.mem_singleton] at hb
    have := (h.numbered p hp).2
    have e' : p.serial = w.next := e.trans hb
    omega
  · intro p hp
    rcases List.mem_append.1 hp with h1 | h1
    · have := h.numbered p h1
      exact ⟨this.1, by omega⟩
    · rw [List.mem_singleton] at h1
      subst h1
      exact ⟨h0, by simp⟩

theorem fine_born {w : World} (h : Fine w) {pid group : Nat} (h0 : pid ≠ 0) (hu : w.unused pid) :
    Fine { w with procs := w.procs ++ [⟨w.next, pid, group, none⟩], next := w.next + 1 } := by
  obtain ⟨a, b, c⟩ := fine_add h (group := group) h0 hu
  obtain ⟨p, hp, h1, h2⟩ := h.program
  refine ⟨a, b, c, ⟨p, List.mem_append_left _ hp, h1, h2⟩, Nat.lt_succ_of_lt h.older, h.other, fun s hs => Nat.lt_succ_of_lt (h.mine s hs), h.unstarted, ?_⟩
  intro e
  obtain ⟨b, hb, hc⟩ := h.started e
  refine ⟨b, hb, fun ht => ?_⟩
  obtain ⟨q, hq, h3, h4⟩ := hc ht
  exact ⟨q, List.mem_append_left _ hq, h3, h4⟩

theorem fine_fork {w : World} (h : Fine w) (pid : Nat) : Fine (fork w pid).2 := by
  unfold fork
  split_ifs with hc
  · obtain ⟨a, b, c⟩ := fine_add h (group := w.group) hc.1 hc.2
    obtain ⟨p, hp, h1, h2⟩ := h.program
    refine ⟨a, b, c, ⟨p, List.mem_append_left _ hp, h1, h2⟩, Nat.lt_succ_of_lt h.older, ?_, ?_, fun e => absurd e hc.1, ?_⟩
    · intro e
      rcases List.mem_append.1 e with h3 | h3
      · exact h.other h3
      · have := h.older
        rw [List.mem_singleton] at h3
        have h3' : w.self = w.next := h3
        omega
    · intro s hs
      rcases List.mem_append.1 hs with h3 | h3
      · exact Nat.lt_succ_of_lt (h.mine s h3)
      · rw [List.mem_singleton] at h3
        exact h3 ▸ Nat.lt_succ_self _
    · intro _
      refine ⟨w.next, by simp, fun _ => ⟨⟨w.next, pid, w.group, none⟩, by simp, rfl, rfl⟩⟩
  · exact h

theorem nodup_filter_map {f : Proc → Nat} {l : List Proc} (h : (l.map f).Nodup) (P : Proc → Bool) : ((l.filter P).map f).Nodup :=
  h.sublist (List.Sublist.map f List.filter_sublist)

theorem childOf_some {w : World} {p : Proc} (h : w.childOf w.object.pid = some p) : p ∈ w.procs ∧ p.pid = w.object.pid ∧ p.serial ∈ w.mine := by
  have h1 := List.mem_of_find?_eq_some h
  have h2 := List.find?_some h
  simp only [Bool.and_eq_true, beq_iff_eq, List.contains_iff_mem] at h2
  exact ⟨h1, h2.1, h2.2⟩

theorem fine_poll {w : World} (h : Fine w) : Fine (poll w).2 := by
  unfold poll
  split_ifs with h1 h2
  · exact h
  · exact h
  · unfold waitpid
    cases hc : w.childOf w.object.pid with
    | none => exact h
    | some p =>
      obtain ⟨hp, hq, hm⟩ := childOf_some hc
      dsimp only
      cases he : p.ended with
      | none =>
        dsimp only
        rw [if_neg (by omega)]
        exact h
      | some s =>
        dsimp only
        rw [if_pos rfl]
        obtain ⟨q, hq1, hq2, hq3⟩ := h.program
        obtain ⟨b, hb, -⟩ := h.started h1
        refine ⟨nodup_filter_map h.pids _, nodup_filter_map h.serials _, fun r hr => h.numbered r (List.mem_of_mem_filter hr),
          ⟨q, List.mem_filter.2 ⟨hq1, ?_⟩, hq2, hq3⟩, h.older, h.other, h.mine, fun e => absurd e h1, fun _ => ⟨b, hb, fun e => by simp at e⟩⟩
        have : q.serial ≠ p.serial := fun e => h.other (hq2 ▸ e ▸ hm)
        simpa using this

theorem kill_world {may : Nat → Bool} {w w' : World} {pid : Nat} {sig : Int} (h : kill may w pid sig = some w') :
    w' = { w with received := w'.received } := by
  unfold kill at h
  by_cases h1 : sig < 0 ∨ 64 < sig
  · rw [if_pos h1] at h
    exact absurd h (by simp)
  · rw [if_neg h1] at h
    dsimp only at h
    by_cases h2 : ((w.procs.filter fun p => if pid = 0 then p.group == w.group else p.pid == pid).filter fun p => may p.serial) = []
    · rw [if_pos h2] at h
      exact absurd h (by simp)
    · rw [if_neg h2] at h
      rw [← Option.some.inj h]

theorem fine_signal {may : Nat → Bool} {w : World} (h : Fine w) (sig : Int) : Fine (sendSignal may w sig).2 := by
  unfold sendSignal
  cases hk : kill may w w.object.pid sig with
  | none => exact h
  | some w' =>
    dsimp only
    rw [kill_world hk]
    exact ⟨h.pids, h.serials, h.numbered, h.program, h.older, h.other, h.mine, h.unstarted, h.started⟩

theorem fine_step (may : Nat → Bool) {w : World} (h : Fine w) (e : Event) : Fine (step may w e) := by
  cases e with
  | born pid group =>
    unfold step
    dsimp only
    split_ifs with hc
    · exact fine_born h hc.1 hc.2
    · exact h
  | ends s =>
    unfold step
    dsimp only
    split_ifs with hc
    · exact h
    · obtain ⟨q, hq1, hq2, hq3⟩ := h.program
      have hk : ∀ p ∈ w.procs, p.serial = w.self ∨ p.serial ∈ w.mine → p ∈ w.procs.filter fun p => p.serial != s := by
        intro p hp hor
        refine List.mem_filter.2 ⟨hp, ?_⟩
        have : p.serial ≠ s := by
          rintro rfl
          exact hc hor
        simpa using this
      refine ⟨nodup_filter_map h.pids _, nodup_filter_map h.serials _, fun r hr => h.numbered r (List.mem_of_mem_filter hr),
        ⟨q, hk q hq1 (.inl hq2), hq2, hq3⟩, h.older, h.other, h.mine, h.unstarted, fun e => ?_⟩
      obtain ⟨b, hb, hb'⟩ := h.started e
      refine ⟨b, hb, fun ht => ?_⟩
      obtain ⟨p, hp, h1, h2⟩ := hb' ht
      exact ⟨p, hk p hp (.inr (h1 ▸ List.mem_of_getLast? hb)), h1, h2⟩
  | exits s status =>
    unfold step
    dsimp only
    split_ifs with hc
    · have hf : ∀ (f : Proc → Nat), (∀ p : Proc, ∀ x, f { p with ended := x } = f p) →
          (w.procs.map fun p => if p.serial = s ∧ p.ended = none then { p with ended := some status } else p).map f = w.procs.map f := by
        intro f hf
        rw [List.map_map]
        refine List.map_congr_left fun p _ => ?_
        simp only [Function.comp]
        split_ifs
        · exact hf _ _
        · rfl
      have hk : ∀ p ∈ w.procs, ∃ q ∈ w.procs.map (fun p => if p.serial = s ∧ p.ended = none then { p with ended := some status } else p),
          q.serial = p.serial ∧ q.pid = p.pid ∧ q.group = p.group := by
        intro p hp
        refine ⟨_, List.mem_map.2 ⟨p, hp, rfl⟩, ?_⟩
        split_ifs <;> exact ⟨rfl, rfl, rfl⟩
      obtain ⟨q, hq1, hq2, hq3⟩ := h.program
      obtain ⟨q', a1, a2, a3, a4⟩ := hk q hq1
      refine ⟨?_, ?_, ?_, ⟨q', a1, a2.trans hq2, a4.trans hq3⟩, h.older, h.other, h.mine, h.unstarted, fun e => ?_⟩
      · rw [hf _ fun _ _ => rfl]; exact h.pids
      · rw [hf _ fun _ _ => rfl]; exact h.serials
      · intro r hr
        obtain ⟨p, hp, rfl⟩ := List.mem_map.1 hr
        split_ifs <;> exact h.numbered p hp
      · obtain ⟨b, hb, hb'⟩ := h.started e
        refine ⟨b, hb, fun ht => ?_⟩
        obtain ⟨p, hp, h1, h2⟩ := hb' ht
        obtain ⟨p', b1, b2, b3, -⟩ := hk p hp
        exact ⟨p', b1, b2.trans h1, b3.trans h2⟩
    · exact h
  | fork pid => exact fine_fork h pid
  | poll => exact fine_poll h
  | signal sig => exact fine_signal h sig

theorem fine_run (may : Nat → Bool) (h : List Event) {w : World} (hw : Fine w) : Fine (run may w h) := by
  induction h generalizing w with
  | nil => exact hw
  | cons e es ih => exact ih (fine_step may hw e)

theorem self_run (may : Nat → Bool) (h : List Event) (w : World) : (run may w h).self = w.self ∧ (run may w h).group = w.group := by
  induction h generalizing w with
  | nil => exact ⟨rfl, rfl⟩
  | cons e es ih =>
    have hs : (step may w e).self = w.self ∧ (step may w e).group = w.group := by
      cases e with
      | fork pid => simp only [step, fork]; split_ifs <;> exact ⟨rfl, rfl⟩
      | poll =>
        simp only [step, poll]
        split_ifs
        · exact ⟨rfl, rfl⟩
        · exact ⟨rfl, rfl⟩
        · unfold waitpid
          cases w.childOf w.object.pid with
          | none => exact ⟨rfl, rfl⟩
          | some p =>
            dsimp only
            cases p.ended with
            | none => dsimp only; split_ifs <;> exact ⟨rfl, rfl⟩
            | some s => dsimp only; split_ifs <;> exact ⟨rfl, rfl⟩
      | signal sig =>
        simp only [step, sendSignal]
        cases hk : kill may w w.object.pid sig with
        | none => exact ⟨rfl, rfl⟩
        | some w' => dsimp only; rw [kill_world hk]; exact ⟨rfl, rfl⟩
      | _ => simp only [step]; split_ifs <;> exact ⟨rfl, rfl⟩
    obtain ⟨h1, h2⟩ := ih (step may w e)
    exact ⟨h1.trans hs.1, h2.trans hs.2⟩

theorem send_to {may : Nat → Bool} {w : World} (hw : Fine w) {p : Proc} (hp : p ∈ w.procs) (he : p.pid = w.object.pid) {sig : Int}
    (h0 : 0 ≤ sig ∧ sig ≤ 64) :
    sendSignal may w sig = if may p.serial then (.returns (), { w with received := w.received ++ [(p.serial, sig)] }) else (.throws, w) := by
  have hz := (hw.numbered p hp).1
  unfold sendSignal kill
  rw [if_neg (by omega)]
  dsimp only
  have hf : (w.procs.filter fun q => if w.object.pid = 0 then q.group == w.group else q.pid == w.object.pid) = [p] := by
    rw [← he]
    simp only [if_neg hz]
    exact only_one hw.pids hp
  rw [hf]
  cases hm : may p.serial with
  | true => simp [hm]
  | false => simp [hm]

/-- From the time a child is started until the program is told that it has terminated (even if it has, and even if numbers of processes are used
again), a signal goes to that child, and to no other process; if the system does not allow that, an exception is thrown and nobody gets a signal. -/
theorem C120_signal {procs : List Proc} {next self group : Nat} (hs : System procs next self group) (may : Nat → Bool) (h : List Event) {w : World}
    (hw : run may (initial procs next self group) h = w) (hp : w.object.pid ≠ 0) (ht : w.object.terminated = false) {sig : Int} (h0 : 0 ≤ sig ∧ sig ≤ 64) :
    ∃ child, w.mine.getLast? = some child ∧ child ≠ self ∧
      sendSignal may w sig = if may child then (.returns (), { w with received := w.received ++ [(child, sig)] }) else (.throws, w) := by
  subst hw
  have hf := fine_run may h (fine_initial hs)
  obtain ⟨b, hb, hb'⟩ := hf.started hp
  obtain ⟨p, hq, h1, h2⟩ := hb' ht
  refine ⟨b, hb, ?_, ?_⟩
  · rintro rfl
    refine hf.other ?_
    rw [(self_run may h _).1]
    exact List.mem_of_getLast? hb
  · rw [send_to hf hq h2 h0, h1]

theorem mine_step (may : Nat → Bool) (w : World) (e : Event) : ∀ s ∈ w.mine, s ∈ (step may w e).mine := by
  intro s hs
  cases e with
  | fork pid => simp only [step, fork]; split_ifs <;> simp [hs]
  | poll =>
    simp only [step, poll]
    split_ifs
    · exact hs
    · exact hs
    · unfold waitpid
      cases w.childOf w.object.pid with
      | none => exact hs
      | some p =>
        dsimp only
        cases p.ended with
        | none => dsimp only; split_ifs <;> exact hs
        | some s => dsimp only; split_ifs <;> exact hs
  | signal sig =>
    simp only [step, sendSignal]
    cases hk : kill may w w.object.pid sig with
    | none => exact hs
    | some w' => dsimp only; rw [kill_world hk]; exact hs
  | _ => simp only [step]; split_ifs <;> exact hs

theorem received_step (may : Nat → Bool) (w : World) (e : Event) (he : ∀ sig, e ≠ .signal sig) : (step may w e).received = w.received := by
  cases e with
  | fork pid => simp only [step, fork]; split_ifs <;> rfl
  | poll =>
    simp only [step, poll]
    split_ifs
    · rfl
    · rfl
    · unfold waitpid
      cases w.childOf w.object.pid with
      | none => rfl
      | some p =>
        dsimp only
        cases p.ended with
        | none => dsimp only; split_ifs <;> rfl
        | some s => dsimp only; split_ifs <;> rfl
  | signal sig => exact absurd rfl (he sig)
  | _ => simp only [step]; split_ifs <;> rfl

/-- If signals are sent only to a child that has been started and is not known to have terminated, whatever happens, only children of the object
get signals: neither the program nor any other process.  What is missing: nothing in the interface sees to that (see the theorems on what is
violated). -/
theorem C120_only_children_partial {procs : List Proc} {next self group : Nat} (hs : System procs next self group) (may : Nat → Bool) (h : List Event)
    (hc : Careful may (initial procs next self group) h) :
    ∀ r ∈ (run may (initial procs next self group) h).received, r.1 ∈ (run may (initial procs next self group) h).mine ∧ r.1 ≠ self := by
  have key : ∀ (h : List Event) (w : World), Fine w → Careful may w h → (∀ r ∈ w.received, r.1 ∈ w.mine) →
      ∀ r ∈ (run may w h).received, r.1 ∈ (run may w h).mine := by
    intro h
    induction h with
    | nil => intro w _ _ hr; exact hr
    | cons e es ih =>
      intro w hw hc hr
      refine ih (step may w e) (fine_step may hw e) hc.2 ?_
      cases e with
      | signal sig =>
        obtain ⟨hp, ht⟩ := hc.1
        obtain ⟨b, hb, hb'⟩ := hw.started hp
        obtain ⟨p, hq, h1, h2⟩ := hb' ht
        by_cases h0 : 0 ≤ sig ∧ sig ≤ 64
        · simp only [step, send_to hw hq h2 h0]
          split_ifs
          · intro r hm
            rcases List.mem_append.1 hm with h3 | h3
            · exact hr r h3
            · rw [List.mem_singleton] at h3
              rw [h3]
              show p.serial ∈ w.mine
              rw [h1]
              exact List.mem_of_getLast? hb
          · exact hr
        · have hk : kill may w w.object.pid sig = none := by
            unfold kill
            rw [if_pos (by omega)]
          simp only [step, sendSignal, hk]
          exact hr
      | _ =>
        intro r hm
        rw [received_step may w _ (by intro s hx; cases hx)] at hm
        exact mine_step may w _ _ (hr r hm)
  intro r hr
  have h1 := key h _ (fine_initial hs) hc (by intro r hr; simp [initial] at hr) r hr
  refine ⟨h1, ?_⟩
  intro e
  refine (fine_run may h (fine_initial hs)).other ?_
  rw [(self_run may h _).1]
  exact e ▸ h1

/-- Discrepancy: `terminate()` before the child is started sends SIGTERM to the program itself, and to all the processes of its group, and `kill()`
sends them SIGKILL. -/
theorem C120_violated_unstarted {procs : List Proc} {next self group : Nat} (hs : System procs next self group) (may : Nat → Bool) (h : List Event) {w : World}
    (hw : run may (initial procs next self group) h = w) (hp : w.object.pid = 0) (hm : may self = true) :
    (terminate may w).1 = .returns () ∧ (self, 15) ∈ (terminate may w).2.received ∧
    (killChild may w).1 = .returns () ∧ (self, 9) ∈ (killChild may w).2.received ∧
    ∀ p ∈ w.procs, p.group = group → may p.serial = true → (p.serial, 15) ∈ (terminate may w).2.received := by
  subst hw
  have hf := fine_run may h (fine_initial hs)
  obtain ⟨e1, e2⟩ := self_run may h (initial procs next self group)
  generalize run may (initial procs next self group) h = w at *
  obtain ⟨q, hq, q1, q2⟩ := hf.program
  have hq1 : q.serial = self := q1.trans e1
  have key : ∀ sig : Int, 0 ≤ sig ∧ sig ≤ 64 → (sendSignal may w sig).1 = .returns () ∧
      ∀ p ∈ w.procs, p.group = group → may p.serial = true → (p.serial, sig) ∈ (sendSignal may w sig).2.received := by
    intro sig h0
    have hne : ∀ p ∈ w.procs, p.group = group → may p.serial = true →
        p ∈ (w.procs.filter fun p => if w.object.pid = 0 then p.group == w.group else p.pid == w.object.pid).filter fun p => may p.serial := by
      intro p hp1 hp2 hp3
      refine List.mem_filter.2 ⟨List.mem_filter.2 ⟨hp1, ?_⟩, hp3⟩
      rw [if_pos hp]
      simpa using hp2.trans e2.symm
    have hmem := hne q hq (q2.trans e2) (hq1 ▸ hm)
    unfold sendSignal kill
    rw [if_neg (by omega)]
    dsimp only
    rw [if_neg (List.ne_nil_of_mem hmem)]
    refine ⟨rfl, fun p h1 h2 h3 => ?_⟩
    exact List.mem_append_right _ (List.mem_map.2 ⟨p, hne p h1 h2 h3, rfl⟩)
  obtain ⟨a1, a2⟩ := key 15 (by omega)
  obtain ⟨b1, b2⟩ := key 9 (by omega)
  exact ⟨a1, hq1 ▸ a2 q hq (q2.trans e2) (hq1 ▸ hm), b1, hq1 ▸ b2 q hq (q2.trans e2) (hq1 ▸ hm), a2⟩

/-- Discrepancy: once the program has been told that the child has terminated, the signal is sent all the same: if another program has got a process of
the same number meanwhile, that process gets it. -/
theorem C120_violated_after {procs : List Proc} {next self group : Nat} (hs : System procs next self group) (may : Nat → Bool) (h : List Event) {w : World}
    (hw : run may (initial procs next self group) h = w) (hp : w.object.pid ≠ 0) (hu : w.unused w.object.pid) (g : Nat) {sig : Int}
    (h0 : 0 ≤ sig ∧ sig ≤ 64) (hm : may w.next = true) :
    let w' := step may w (.born w.object.pid g)
    (sendSignal may w' sig).1 = .returns () ∧ (sendSignal may w' sig).2.received = w.received ++ [(w.next, sig)] ∧ w.next ∉ w'.mine := by
  subst hw
  have hf := fine_run may h (fine_initial hs)
  generalize run may (initial procs next self group) h = w at *
  intro w'
  have hb := fine_born hf (group := g) hp hu
  have e : w' = { w with procs := w.procs ++ [⟨w.next, w.object.pid, g, none⟩], next := w.next + 1 } := by
    show step may w (.born w.object.pid g) = _
    unfold step
    dsimp only
    rw [if_pos ⟨hp, hu⟩]
  rw [e]
  rw [send_to hb (p := ⟨w.next, w.object.pid, g, none⟩) (by simp) rfl h0]
  dsimp only
  rw [if_pos hm]
  refine ⟨rfl, rfl, fun hx => ?_⟩
  have := hf.mine _ hx
  omega

/-- If no process has that number any more, an exception is thrown. -/
theorem C120_gone (may : Nat → Bool) (w : World) (hp : w.object.pid ≠ 0) (hu : w.unused w.object.pid) (sig : Int) :
    sendSignal may w sig = (.throws, w) := by
  have hk : kill may w w.object.pid sig = none := by
    have hn : (w.procs.filter fun p => if w.object.pid = 0 then p.group == w.group else p.pid == w.object.pid) = [] := by
      refine List.filter_eq_nil_iff.2 fun p hp1 hx => ?_
      rw [if_neg hp] at hx
      exact hu p hp1 (by simpa using hx)
    unfold kill
    by_cases h1 : sig < 0 ∨ 64 < sig
    · rw [if_pos h1]
    · rw [if_neg h1]
      dsimp only
      rw [hn]
      rfl
  unfold sendSignal
  rw [hk]

/-- Discrepancy: an object can start another child; if the first one has terminated, the second is said to have terminated while it is running. -/
theorem C120_violated_restart {procs : List Proc} {next self group : Nat} (may : Nat → Bool) (h : List Event) {w : World}
    (hw : run may (initial procs next self group) h = w) (ht : w.object.terminated = true) (pid : Nat) (h0 : pid ≠ 0) (hu : w.unused pid) :
    (fork w pid).1 = .returns () ∧ (fork w pid).2.mine.getLast? = some w.next ∧ poll (fork w pid).2 = (.returns true, (fork w pid).2) ∧
    ∃ p ∈ (fork w pid).2.procs, p.serial = w.next ∧ p.ended = none := by
  subst hw
  have hfk : fork (run may (initial procs next self group) h) pid = (.returns (), { run may (initial procs next self group) h with
      procs := (run may (initial procs next self group) h).procs ++ [⟨(run may (initial procs next self group) h).next, pid, (run may (initial procs next self group) h).group, none⟩]
      next := (run may (initial procs next self group) h).next + 1
      mine := (run may (initial procs next self group) h).mine ++ [(run may (initial procs next self group) h).next]
      object := { (run may (initial procs next self group) h).object with pid := pid } }) := by
    unfold fork
    rw [if_pos ⟨h0, hu⟩]
  rw [hfk]
  refine ⟨rfl, by simp, ?_, ⟨_, List.mem_append_right _ (List.mem_singleton.2 rfl), rfl, rfl⟩⟩
  unfold poll
  dsimp only
  rw [if_neg h0, if_pos ht]

/-! ### The text of a status -/

theorem numeral_decimal_text (n : Nat) : Text.decimal n = numeral n := by
  unfold numeral
  induction n using Nat.strongRecOn with
  | _ n ih =>
    rw [Text.decimal]
    by_cases h : n < 10
    · rw [if_pos h, Nat.log_of_lt h]
      show _ = [] ++ [UInt8.ofNat (48 + n % 10)]
      rw [Nat.mod_eq_of_lt h]
      rfl
    · rw [if_neg h, ih (n / 10) (by omega), Nat.log_of_one_lt_of_le (n := n) (by omega) (by omega)]
      rfl

/-- The text says how the process has ended. -/
theorem C120_text (e : Ending) (h : e.Valid) : formatRaw e.status = e.text := by
  cases e with
  | exited c =>
    have hc : c < 256 := h
    have hw : wexitstatus (256 * c) = c := by
      unfold wexitstatus
      rw [Nat.shiftRight_eq_div_pow, show (0xff : Nat) = 2 ^ 8 - 1 from rfl, Nat.and_two_pow_sub_one_eq_mod]
      omega
    have hx : wifexited (256 * c) = true := by unfold wifexited; rw [beq_iff_eq]; omega
    unfold formatRaw Ending.status
    simp only [hx, hw, if_true]
    cases c with
    | zero => rfl
    | succ c =>
      rw [if_neg (by omega)]
      unfold RecordTexts.signed
      rw [if_neg (by omega)]
      show _ = str "exited with code " ++ numeral (c + 1)
      rw [← numeral_decimal_text]
      rfl
  | killed s core =>
    obtain ⟨h1, h2⟩ : 1 ≤ s ∧ s ≤ 126 := h
    have hx : ∀ d : Nat, d = 0 ∨ d = 128 → wifexited (s + d) = false ∧ wifsignaled (s + d) = true ∧ (s + d) % 128 = s := by
      intro d hd
      have : (s + d) % 128 = s := by omega
      refine ⟨?_, ?_, this⟩
      · unfold wifexited; rw [this]; simp; omega
      · unfold wifsignaled; rw [this]; simp; omega
    cases core with
    | false =>
      obtain ⟨a, b, c⟩ := hx 0 (.inl rfl)
      have hd : ((s + 0) / 128 % 2 == 1) = false := by rw [beq_eq_false_iff_ne]; omega
      show formatRaw (s + 0) = str "was interrupted, killed by signal " ++ numeral s
      unfold formatRaw
      simp only [a, b, c, hd, if_true, Bool.false_eq_true, if_false, List.append_nil]
      rw [numeral_decimal_text]
    | true =>
      obtain ⟨a, b, c⟩ := hx 128 (.inr rfl)
      have hd : ((s + 128) / 128 % 2 == 1) = true := by rw [beq_iff_eq]; omega
      show formatRaw (s + 128) = str "was interrupted, killed by signal " ++ numeral s ++ str " (core dumped)"
      unfold formatRaw
      simp only [a, b, c, hd, if_true, Bool.false_eq_true, if_false]
      rw [numeral_decimal_text]

theorem cut_number {n m : Nat} {s t : Bytes} (hs : ∀ c ∈ s.head?, Text.isDigit c = false) (ht : ∀ c ∈ t.head?, Text.isDigit c = false)
    (h : numeral n ++ s = numeral m ++ t) : n = m ∧ s = t := by
  rw [← numeral_decimal_text, ← numeral_decimal_text] at h
  have hn := (RecordTexts.decimal_chars n).2
  have hm := (RecordTexts.decimal_chars m).2
  have e : ∀ (a b : Bytes), (∀ c ∈ a, Text.isDigit c = true) → (∀ c ∈ b.head?, Text.isDigit c = false) → (a ++ b).takeWhile Text.isDigit = a := by
    intro a b ha hb
    rw [List.takeWhile_append_of_pos ha]
    cases b with
    | nil => simp
    | cons c b => rw [List.takeWhile_cons_of_neg (by rw [hb c rfl]; decide), List.append_nil]
  have h1 := e _ s hn hs
  rw [h, e _ t hm ht] at h1
  have h2 := RecordTexts.decimal_inj h1
  subst h2
  exact ⟨rfl, List.append_cancel_left h⟩

/-- Two processes that have not ended in the same way have different texts; the text of success is that of exit code 0 only. -/
theorem C120_text_tells (e f : Ending) (he : e.Valid) (hf : f.Valid) (h : formatRaw e.status = formatRaw f.status) : e = f := by
  rw [C120_text e he, C120_text f hf] at h
  have hd : ∀ n : Nat, numeral n = numeral n ++ [] := fun n => (List.append_nil _).symm
  have n1 : ∀ c ∈ ([] : Bytes).head?, Text.isDigit c = false := by simp
  have n2 : ∀ c ∈ (str " (core dumped)").head?, Text.isDigit c = false := by decide
  have c1 : ∀ n : Nat, (str "exited with code " ++ numeral n).head? = some 101 := fun n => rfl
  have c2 : ∀ (s : Nat) (b : Bool), (Ending.killed s b).text.head? = some 119 := fun s b => by cases b <;> rfl
  have c3 : (Ending.exited 0).text.head? = some 116 := rfl
  cases e with
  | exited a =>
    cases f with
    | exited b =>
      cases a with
      | zero =>
        cases b with
        | zero => rfl
        | succ b => exact absurd ((congrArg List.head? h).symm.trans c3) (by rw [show (Ending.exited (b + 1)).text.head? = some 101 from rfl]; decide)
      | succ a =>
        cases b with
        | zero => exact absurd ((congrArg List.head? h).trans c3) (by rw [show (Ending.exited (a + 1)).text.head? = some 101 from rfl]; decide)
        | succ b =>
          have h1 : numeral (a + 1) = numeral (b + 1) := List.append_cancel_left h
          rw [hd, hd (b + 1)] at h1
          rw [(cut_number n1 n1 h1).1]
    | killed s c =>
      have := (congrArg List.head? h).trans (c2 s c)
      cases a with
      | zero => exact absurd (c3.symm.trans this) (by decide)
      | succ a => exact absurd (this.symm.trans (show (Ending.exited (a + 1)).text.head? = some 101 from rfl)) (by decide)
  | killed s c =>
    cases f with
    | exited b =>
      have := (congrArg List.head? h).symm.trans (c2 s c)
      cases b with
      | zero => exact absurd (c3.symm.trans this) (by decide)
      | succ a => exact absurd (this.symm.trans (show (Ending.exited (a + 1)).text.head? = some 101 from rfl)) (by decide)
    | killed s' c' =>
      cases c with
      | false =>
        cases c' with
        | false =>
          have h1 : numeral s = numeral s' := List.append_cancel_left h
          rw [hd, hd s'] at h1
          rw [(cut_number n1 n1 h1).1]
        | true =>
          have h0 : str "was interrupted, killed by signal " ++ numeral s = str "was interrupted, killed by signal " ++ numeral s' ++ str " (core dumped)" := h
          rw [List.append_assoc] at h0
          have h1 := List.append_cancel_left h0
          rw [hd] at h1
          exact absurd (cut_number n1 n2 h1).2 (by decide)
      | true =>
        cases c' with
        | false =>
          have h0 : str "was interrupted, killed by signal " ++ numeral s ++ str " (core dumped)" = str "was interrupted, killed by signal " ++ numeral s' := h
          rw [List.append_assoc] at h0
          have h1 := List.append_cancel_left h0
          rw [hd s'] at h1
          exact absurd (cut_number n2 n1 h1).2 (by decide)
        | true =>
          have h0 : str "was interrupted, killed by signal " ++ numeral s ++ str " (core dumped)" =
            str "was interrupted, killed by signal " ++ numeral s' ++ str " (core dumped)" := h
          rw [List.append_assoc, List.append_assoc] at h0
          rw [(cut_number n2 n2 (List.append_cancel_left h0)).1]

/-! ### The handler of SIGCHLD -/

/-- Whatever happens while a wait with a timeout waits, once it returns or throws the program handles SIGCHLD as before. -/
theorem C120_handler (h : Handler) (k : Kernel) (left slept : Nat) (ts : List Turn) (hb : (waitLoop h k left slept ts).1 ≠ .blocked) :
    (waitLoop h k left slept ts).2.1 = h := by
  induction ts generalizing k left slept with
  | nil =>
    unfold waitLoop at hb ⊢
    cases k with
    | running =>
      dsimp only at hb ⊢
      split_ifs at hb ⊢
      · rfl
      · exact absurd rfl hb
    | _ => rfl
  | cons t ts ih =>
    cases k with
    | running =>
      by_cases h1 : left = 0
      · rw [waitLoop.eq_def]
        dsimp only
        rw [if_pos h1]
      · cases t with
        | asleep s d =>
          rw [waitLoop, if_neg h1] at hb ⊢
          by_cases h2 : (enable h).2 = .default ∨ (enable h).2 = .ignore
          · rw [if_pos h2] at hb ⊢
            exact ih _ _ _ hb
          · rw [if_neg h2] at hb ⊢
            exact ih _ _ _ hb
        | _ =>
          rw [waitLoop, if_neg h1] at hb ⊢
          exact ih _ _ _ hb
    | _ => rfl

/-- A child that terminates while the program is asleep, after any number of other signals, ends the wait at once. -/
theorem C120_prompt (h : Handler) (left slept : Nat) (others : List Nat) (status d : Nat) (ts : List Turn)
    (hl : others.sum + d < left) :
    waitLoop h .running left slept (others.map .other ++ .asleep status d :: ts) = (.returns true, h, slept + others.sum + d) := by
  induction others generalizing left slept with
  | nil =>
    rw [List.sum_nil] at hl
    rw [List.map_nil, List.nil_append, waitLoop]
    rw [if_neg (by omega), if_neg (by simp [enable])]
    rw [show endsUnder (enable h).2 status = .zombie status from rfl, waitLoop.eq_def]
    dsimp only
    rw [Nat.min_eq_left (by omega), List.sum_nil]
    rfl
  | cons o os ih =>
    rw [List.sum_cons] at hl
    rw [List.map_cons, List.cons_append, waitLoop]
    rw [if_neg (by omega)]
    show waitLoop h .running _ _ _ = _
    rw [ih _ _ (by omega), List.sum_cons, Nat.min_eq_left (by omega)]
    congr 2
    omega

/-- Discrepancy: a child that terminates just before the program falls asleep does not end the wait: the whole timeout is slept. -/
theorem C120_violated_race (h : Handler) (hi : h ≠ .ignore) (left slept status : Nat) (hl : left ≠ 0) (ts : List Turn) :
    waitLoop h .running left slept (.before status :: ts) = (.returns true, h, slept + left) ∧
    waitLoop h .running left slept (.installed status :: ts) = (.returns true, h, slept + left) := by
  constructor
  · rw [waitLoop]
    rw [if_neg hl, show endsUnder h status = .zombie status from if_neg hi, waitLoop.eq_def]
    rfl
  · rw [waitLoop]
    rw [if_neg hl, show endsUnder (enable h).2 status = .zombie status from rfl, waitLoop.eq_def]
    rfl

/-- Discrepancy: in a program that ignores SIGCHLD the wait for a child that terminates just before the program falls asleep throws, and its status is lost. -/
theorem C120_violated_ignored (left slept status : Nat) (hl : left ≠ 0) (ts : List Turn) :
    waitLoop .ignore .running left slept (.before status :: ts) = (.throws, .ignore, slept + left) := by
  rw [waitLoop]
  rw [if_neg hl, show endsUnder .ignore status = .reaped status from rfl, waitLoop.eq_def]
  rfl

/-! ### The program that is executed -/

/-- The program that is named, or else the first argument, is executed with the arguments; its exit code is that of the child. -/
theorem C120_program (exec : Exec → Option Nat) (args : List Bytes) (executable : Bytes) (env parent : List Bytes) (path : Bytes) (code : Nat)
    (hp : (executable ≠ [] ∧ path = executable) ∨ (executable = [] ∧ args.head? = some path)) (h1 : Plain path) (h2 : ∀ a ∈ args, Plain a)
    (h3 : ∀ e ∈ env, Plain e) (hx : exec ⟨path, args, if env = [] then parent else env⟩ = some code) :
    popenMain exec args executable env parent = .ok code := by
  have cstr : ∀ s : Bytes, Plain s → s.takeWhile (· ≠ 0) = s := by
    intro s hs
    have := List.takeWhile_append_of_pos (p := fun c : UInt8 => decide (c ≠ 0)) (l₁ := s) (l₂ := []) fun c hc => by
      have : c ≠ 0 := fun e => hs (e ▸ hc)
      simpa using this
    simpa using this
  have hpath : (if executable = [] then args.head? else some executable) = some path := by
    rcases hp with ⟨h, rfl⟩ | ⟨h, h'⟩
    · rw [if_neg h]
    · rw [if_pos h, h']
  unfold popenMain
  dsimp only
  rw [hpath]
  dsimp only
  have ha : args.map (fun s => s.takeWhile (· ≠ 0)) = args :=
    (List.map_congr_left fun a ha => cstr a (h2 a ha)).trans (List.map_id' _)
  have he : Subprocess.childEnv env parent = if env = [] then parent else env := by
    unfold Subprocess.childEnv
    split_ifs
    · rfl
    · exact (List.map_congr_left fun a ha => cstr a (h3 a ha)).trans (List.map_id' _)
  rw [cstr path h1, ha, he, hx]

/-- Discrepancy: a program that cannot be executed looks like one that exits with code 71. -/
theorem C120_violated_exec (args : List Bytes) (executable : Bytes) (env parent : List Bytes) (ha : args ≠ []) :
    popenMain (fun _ => none) args executable env parent = .ok 71 ∧ popenMain (fun _ => some 71) args executable env parent = .ok 71 := by
  have hp : ∃ path, (if executable = [] then args.head? else some executable) = some path := by
    cases args with
    | nil => exact absurd rfl ha
    | cons a as => split_ifs; exacts [⟨a, rfl⟩, ⟨executable, rfl⟩]
  obtain ⟨path, hp⟩ := hp
  unfold popenMain
  dsimp only
  rw [hp]
  exact ⟨rfl, rfl⟩

/-- Discrepancy: starting a child without arguments and without a program is undefined. -/
theorem C120_violated_no_arguments (exec : Exec → Option Nat) (env parent : List Bytes) : popenMain exec [] [] env parent = .ub := rfl

/-! ### Examples -/

/-- A system of two processes, the second being the program. -/
theorem system120 : System [⟨0, 1, 1, none⟩, ⟨1, 50, 50, none⟩] 2 1 50 :=
  ⟨by decide, by decide, by decide, ⟨⟨1, 50, 50, none⟩, by decide, rfl, rfl⟩⟩

/-- A child is started and gets SIGTERM while it runs and after it has terminated; then the program is told. -/
example : let h : List Event := [.fork 60, .born 61 61, .signal 15, .exits 2 15, .signal 15, .poll]
    let w := run (fun _ => true) (initial [⟨0, 1, 1, none⟩, ⟨1, 50, 50, none⟩] 2 1 50) h
    Careful (fun _ => true) (initial [⟨0, 1, 1, none⟩, ⟨1, 50, 50, none⟩] 2 1 50) h ∧ w.received = [(2, 15), (2, 15)] ∧ w.object = ⟨60, 15, true⟩ ∧
      w.unused 60 := by
  refine ⟨?_, by decide, by decide, by decide⟩
  simp only [Careful]
  decide

/-- `terminate()` too early. -/
example : (terminate (fun _ => true) (initial [⟨0, 1, 1, none⟩, ⟨1, 50, 50, none⟩] 2 1 50)).2.received = [(1, 15)] := by decide

/-- `terminate()` too late: the third process gets it. -/
example : let w := run (fun _ => true) (initial [⟨0, 1, 1, none⟩, ⟨1, 50, 50, none⟩] 2 1 50) [.fork 60, .exits 2 0, .poll, .born 60 7]
    (terminate (fun _ => true) w).2.received = [(3, 15)] ∧ w.mine = [2] := by decide

example : (Ending.killed 11 true).Valid ∧ (Ending.killed 11 true).status = 139 ∧ (Ending.exited 3).Valid ∧ (Ending.exited 3).status = 768 := by
  refine ⟨⟨?_, ?_⟩, rfl, ?_, rfl⟩
  · decide
  · decide
  · show 3 < 256
    decide

example : (Ending.killed 11 true).text = str "was interrupted, killed by signal 11 (core dumped)" := by
  have : numeral 11 = str "11" := by
    unfold numeral
    rw [(Nat.log_eq_iff (by omega)).2 (⟨by omega, by omega⟩ : 10 ^ 1 ≤ 11 ∧ 11 < 10 ^ (1 + 1))]
    decide
  show str "was interrupted, killed by signal " ++ numeral 11 ++ str " (core dumped)" = _
  rw [this]
  decide

/-- Five seconds: another signal after one, the end of the child after two more. -/
example : waitLoop .default .running 5 0 [.other 1, .asleep 256 2] = (.returns true, .default, 3) ∧
    waitLoop .default .running 5 0 [.other 1, .before 256] = (.returns true, .default, 5) := by decide

example : popenMain (fun e => if e.path = str "ls" ∧ e.argv = [str "ls", str "-l"] then some 0 else none) [str "ls", str "-l"] [] [] [str "A=1"] = .ok 0 :=
  C120_program _ _ _ _ _ (str "ls") 0 (.inr ⟨rfl, rfl⟩) (by unfold Plain; decide) (by unfold Plain; decide) (by simp) (by decide)

end Msat.Props
