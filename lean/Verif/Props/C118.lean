import Mathlib.Tactic.Tauto
import Mathlib.Tactic.ByContra
import Verif.Model.Locks
import Verif.Spec.Locks
import Verif.Lemmas.Outcome

/-
C118: locks of ranges of files.
-/
namespace Msat.Props
open Msat.Locks Msat.LocksSpec

/-! ### Ranges -/

theorem within_iff (f : Nat) (s : Option Nat) (b : Nat) : within f s b = true ↔ f ≤ b ∧ ∀ x, s = some x → b < x := by
  unfold within
  cases s <;> simp

theorem holds_iff (t : Table) (o b : Nat) (w : Bool) : Holds t o b w ↔ ∃ e ∈ t, e.owner = o ∧ e.write = w ∧ within e.first e.stop b = true := by
  unfold Holds
  simp only [within_iff]

theorem range_sensible {d : Descriptor} {lk : Flock} (h : Sensible d lk) : ∃ r, range lk = .ok r ∧ ∀ b, within r.1 r.2 b = true ↔ Covers lk b := by
  obtain ⟨h1, h2, h3, -, -, -⟩ := h
  unfold range Covers
  rw [if_neg (by omega)]
  by_cases hp : 0 < lk.len
  · rw [if_pos hp, if_neg (by omega)]
    refine ⟨_, rfl, fun b => ?_⟩
    rw [within_iff, if_pos hp]
    simp only [Option.some.injEq, forall_eq']
    omega
  · rw [if_neg hp]
    by_cases hn : lk.len < 0
    · rw [if_pos hn, if_neg (by omega)]
      refine ⟨_, rfl, fun b => ?_⟩
      rw [within_iff, if_neg hp, if_pos hn]
      simp only [Option.some.injEq, forall_eq']
      omega
    · rw [if_neg hn]
      refine ⟨_, rfl, fun b => ?_⟩
      rw [within_iff, if_neg hp, if_neg hn]
      simp only [reduceCtorEq, false_implies, implies_true, and_true]
      omega

theorem conflicts_iff (t : Table) (o : Nat) (w : Bool) (r : Nat × Option Nat) :
    conflicts t o w r ≠ [] ↔ ∃ o' b w', o' ≠ o ∧ Holds t o' b w' ∧ within r.1 r.2 b = true ∧ (w' = true ∨ w = true) := by
  unfold conflicts
  rw [ne_eq, List.eq_nil_iff_forall_not_mem, not_forall]
  simp only [not_not]
  simp only [List.mem_filter, Bool.and_eq_true, bne_iff_ne, ne_eq, Bool.or_eq_true, holds_iff]
  constructor
  · rintro ⟨e, he, ⟨⟨h1, h2⟩, h3⟩, h4⟩
    exact ⟨e.owner, _, e.write, h1, ⟨e, he, rfl, rfl, h3⟩, h4, h2⟩
  · rintro ⟨o', b, w', h1, ⟨e, he, rfl, rfl, h3⟩, h4, h2⟩
    refine ⟨e, he, ⟨⟨h1, h2⟩, ?_⟩, ?_⟩
    all_goals
      rw [within_iff] at h3 h4 ⊢
      refine ⟨by omega, fun x hx => ?_⟩
      have := h3.2
      have := h4.2
      first
        | (have := h3.2 x hx; omega)
        | (have := h4.2 x hx; omega)

theorem cut_holds (e : Entry) (r : Nat × Option Nat) (b : Nat) :
    (∃ p ∈ cut e r, within p.first p.stop b = true) ↔ within e.first e.stop b = true ∧ ¬ within r.1 r.2 b = true := by
  obtain ⟨f, s⟩ := r
  obtain ⟨o, w, ef, es⟩ := e
  unfold cut
  simp only [within_iff]
  cases s <;> cases es <;> simp <;> omega

theorem cut_same {e p : Entry} {r : Nat × Option Nat} (h : p ∈ cut e r) : p.owner = e.owner ∧ p.write = e.write := by
  obtain ⟨f, s⟩ := r
  unfold cut at h
  cases s <;> simp at h
  · subst h; exact ⟨rfl, rfl⟩
  · rcases h with rfl | rfl <;> exact ⟨rfl, rfl⟩

theorem place_holds (t : Table) (o : Nat) (k : Kind) (r : Nat × Option Nat) (o' b : Nat) (w : Bool) :
    Holds (place t o k r) o' b w ↔ if o' = o ∧ within r.1 r.2 b = true then (k = .write ∧ w = true ∨ k = .read ∧ w = false) else Holds t o' b w := by
  have hnew : (∃ e ∈ (if k = Kind.unlock then ([] : Table) else [⟨o, k = .write, r.1, r.2⟩]), e.owner = o' ∧ e.write = w ∧ within e.first e.stop b = true) ↔
      o' = o ∧ within r.1 r.2 b = true ∧ (k = .write ∧ w = true ∨ k = .read ∧ w = false) := by
    cases k <;> cases w <;> simp <;> tauto
  have hold : (∃ e ∈ (t.flatMap fun e => if e.owner = o then cut e r else [e]), e.owner = o' ∧ e.write = w ∧ within e.first e.stop b = true) ↔
      ¬ (o' = o ∧ within r.1 r.2 b = true) ∧ Holds t o' b w := by
    rw [holds_iff]
    constructor
    · rintro ⟨p, hp, h1, h2, h3⟩
      obtain ⟨e, he, hpe⟩ := List.mem_flatMap.1 hp
      split at hpe
      · rename_i ho
        have hs := cut_same hpe
        have hc := (cut_holds e r b).1 ⟨p, hpe, h3⟩
        exact ⟨fun hh => hc.2 hh.2, e, he, hs.1.symm.trans h1, hs.2.symm.trans h2, hc.1⟩
      · rename_i ho
        rw [List.mem_singleton] at hpe
        subst hpe
        exact ⟨fun hh => ho (h1.trans hh.1), p, he, h1, h2, h3⟩
    · rintro ⟨hn, e, he, h1, h2, h3⟩
      by_cases ho : e.owner = o
      · have hb : ¬ within r.1 r.2 b = true := fun hb => hn ⟨h1.symm.trans ho, hb⟩
        obtain ⟨p, hp, hw⟩ := (cut_holds e r b).2 ⟨h3, hb⟩
        have hs := cut_same hp
        exact ⟨p, List.mem_flatMap.2 ⟨e, he, by rw [if_pos ho]; exact hp⟩, hs.1.trans h1, hs.2.trans h2, hw⟩
      · exact ⟨e, List.mem_flatMap.2 ⟨e, he, by rw [if_neg ho]; exact List.mem_singleton.2 rfl⟩, h1, h2, h3⟩
  rw [holds_iff]
  unfold place
  simp only [List.mem_append, or_and_right, exists_or]
  rw [hnew, hold]
  by_cases h : o' = o ∧ within r.1 r.2 b = true
  · rw [if_pos h]
    tauto
  · rw [if_neg h]
    tauto

/-! ### What the system answers -/

/-- A sensible request is granted if it is free, and then exactly what was asked for is locked; otherwise the answer is to try again. -/
theorem fcntl_sensible (ofd : Bool) (t : Table) {d : Descriptor} {lk : Flock} (h : Sensible d lk) :
    (Free t (owner ofd d) lk → ∃ t', fcntlSet ofd t d lk = .ok t' ∧ Granted t t' (owner ofd d) lk) ∧
    (¬ Free t (owner ofd d) lk → fcntlSet ofd t d lk = .error .again) := by
  obtain ⟨r, hr, hc⟩ := range_sensible h
  have hfree : Free t (owner ofd d) lk ↔ ¬ (lk.kind ≠ .unlock ∧ conflicts t (owner ofd d) (lk.kind = .write) r ≠ []) := by
    rw [conflicts_iff]
    unfold Free
    constructor
    · rintro hf ⟨hu, o', b, w', h1, h2, h3, h4⟩
      obtain ⟨rfl, hk⟩ := hf hu b ((hc b).1 h3) o' w' h1 h2
      rw [hk] at h4
      simp at h4
    · intro hn hu b hb o' w ho hh
      by_contra hcon
      refine hn ⟨hu, o', b, w, ho, hh, (hc b).2 hb, ?_⟩
      cases w with
      | true => exact Or.inl rfl
      | false =>
        right
        cases hk : lk.kind with
        | read => exact absurd ⟨rfl, hk⟩ hcon
        | write => rfl
        | unlock => exact absurd hk hu
  have hbad : ¬ (lk.kind = .read ∧ d.reads = false ∨ lk.kind = .write ∧ d.writes = false) := by
    rintro (⟨h1, h2⟩ | ⟨h1, h2⟩)
    · rw [h.reads h1] at h2; cases h2
    · rw [h.writes h1] at h2; cases h2
  have e : fcntlSet ofd t d lk = if lk.kind ≠ .unlock ∧ conflicts t (owner ofd d) (lk.kind = .write) r ≠ [] then .error .again
      else .ok (place t (owner ofd d) lk.kind r) := by
    unfold fcntlSet
    rw [if_neg (fun hh => hh.2 h.fresh), hr]
    dsimp only
    rw [if_neg hbad]
  rw [e]
  constructor
  · intro hf
    rw [if_neg (hfree.1 hf)]
    refine ⟨_, rfl, fun o' b w => ?_⟩
    rw [place_holds]
    exact ⟨fun hh => by rw [if_pos ⟨hh.1, (hc b).2 hh.2⟩], fun hh => by rw [if_neg fun h9 => hh ⟨h9.1, (hc b).1 h9.2⟩]⟩
  · intro hf
    rw [if_pos (not_not.1 (fun hh => hf (hfree.2 hh)))]

/-- Whatever is granted, nobody can write what another reads or writes. -/
theorem fcntl_exclusive {ofd : Bool} {t t' : Table} {d : Descriptor} {lk : Flock} (h : fcntlSet ofd t d lk = .ok t') (ht : Exclusive t) :
    Exclusive t' := by
  unfold fcntlSet at h
  split at h
  · cases h
  split at h
  · cases h
  rename_i r hr
  split at h
  · cases h
  split at h
  · cases h
  rename_i hc
  injection h with h
  subst h
  rw [conflicts_iff] at hc
  have one : ∀ b o' w w', o' ≠ owner ofd d → within r.1 r.2 b = true → (lk.kind = .write ∧ w = true ∨ lk.kind = .read ∧ w = false) → Holds t o' b w' →
      w = false ∧ w' = false := by
    intro b o' w w' ho hb hk hh
    have hno := fun hu hw => hc ⟨hu, o', b, w', ho, hh, hb, hw⟩
    rcases hk with ⟨hk, rfl⟩ | ⟨hk, rfl⟩
    · exact absurd (hno (by rw [hk]; decide) (Or.inr (by rw [hk]; rfl))) id
    · refine ⟨rfl, ?_⟩
      cases w' with
      | false => rfl
      | true => exact absurd (hno (by rw [hk]; decide) (Or.inl rfl)) id
  intro b o o' w w' h1 h2 hne
  rw [place_holds] at h1 h2
  split at h1
  · rename_i hb
    rw [if_neg (fun hh => hne (hb.1.trans hh.1.symm))] at h2
    exact one b o' w w' (fun hh => hne (hb.1.trans hh.symm)) hb.2 h1 h2
  · split at h2
    · rename_i hb
      have := one b o w' w (fun hh => hne (hh.trans hb.1.symm)) hb.2 h2 h1
      exact ⟨this.2, this.1⟩
    · exact ht b o o' w w' h1 h2 hne

/-! ### The functions -/

/-- `ofd_setlk`: true exactly if nobody else has a lock that is in the way, and then exactly what was asked for is locked; otherwise false
and nothing has changed. -/
theorem C118_setlk (ofd : Bool) (t : Table) {d : Descriptor} {lk : Flock} (h : Sensible d lk) :
    ∃ b t', setlk ofd t d lk = (.ok b, t') ∧ (b = true ↔ Free t (owner ofd d) lk) ∧ (b = true → Granted t t' (owner ofd d) lk) ∧ (b = false → t' = t) := by
  obtain ⟨h1, h2⟩ := fcntl_sensible ofd t h
  unfold setlk
  by_cases hf : Free t (owner ofd d) lk
  · obtain ⟨t', e, hg⟩ := h1 hf
    rw [e]
    exact ⟨true, t', rfl, ⟨fun _ => hf, fun _ => rfl⟩, fun _ => hg, fun hh => by cases hh⟩
  · rw [h2 hf]
    exact ⟨false, t, rfl, ⟨fun hh => (by cases hh), fun hh => absurd hh hf⟩, (fun hh => by cases hh), fun _ => rfl⟩

/-- Two open file descriptions, even of one process, are kept apart: once one has a lock to write, the other does not get any lock of a byte of
it. -/
theorem C118_apart (t : Table) {d d' : Descriptor} (hd : d.description ≠ d'.description) {lk lk' : Flock} (h : Sensible d lk) (h' : Sensible d' lk')
    (hk : lk.kind = .write) (hk' : lk'.kind ≠ .unlock) (b : Nat) (hb : Covers lk b) (hb' : Covers lk' b) (hg : (setlk true t d lk).1 = .ok true) :
    setlk true (setlk true t d lk).2 d' lk' = (.ok false, (setlk true t d lk).2) := by
  obtain ⟨x, t', e, -, hx, -⟩ := C118_setlk true t h
  rw [e] at hg ⊢
  have : x = true := Outcome.ok.inj hg
  subst this
  have hh : Holds t' d.description b true := ((hx rfl d.description b true).1 ⟨rfl, hb⟩).2 (.inl ⟨hk, rfl⟩)
  obtain ⟨y, t2, e2, hy, -, hy'⟩ := C118_setlk true t' h'
  have hn : y = false := by
    cases y with
    | false => rfl
    | true => exact absurd (hy.1 rfl hk' b hb' d.description true (fun e => hd e) hh).1 (by decide)
  subst hn
  rw [e2, hy' rfl]

/-- Descriptors of one description are not: what one has locked the other can lock too, and unlock. -/
theorem C118_together (t : Table) {d d' : Descriptor} (hd : d.description = d'.description) {lk : Flock} (h : Sensible d lk) (h' : Sensible d' lk)
    (hg : (setlk true t d lk).1 = .ok true) : (setlk true (setlk true t d lk).2 d' lk).1 = .ok true := by
  obtain ⟨x, t', e, hf, hx, -⟩ := C118_setlk true t h
  rw [e] at hg ⊢
  have : x = true := Outcome.ok.inj hg
  subst this
  obtain ⟨y, t2, e2, hy, -, -⟩ := C118_setlk true t' h'
  rw [e2]
  have hn : y = true := by
    refine hy.2 fun hu b hb o' w hne hh => ?_
    have ho : o' ≠ d.description := fun e => hne (e.trans hd)
    exact hf.1 rfl hu b hb o' w ho (((hx rfl o' b w).2 fun c => ho c.1).1 hh)
  rw [hn]

/-- What is unlocked is always granted. -/
theorem C118_unlock (ofd : Bool) (t : Table) {d : Descriptor} {lk : Flock} (h : Sensible d lk) (hk : lk.kind = .unlock) :
    ∃ t', setlk ofd t d lk = (.ok true, t') ∧ ∀ b w, Covers lk b → ¬ Holds t' (owner ofd d) b w := by
  obtain ⟨b, t', e, hb, hg, -⟩ := C118_setlk ofd t h
  have : b = true := hb.2 (fun hh => absurd hk hh)
  subst this
  refine ⟨t', e, fun x w hx hh => ?_⟩
  have := ((hg rfl (owner ofd d) x w).1 ⟨rfl, hx⟩).1 hh
  rw [hk] at this
  rcases this with ⟨h1, -⟩ | ⟨h1, -⟩ <;> cases h1

/-- `ofd_getlk`: true exactly if the lock could be had; nothing is locked. -/
theorem C118_getlk (ofd : Bool) (t : Table) {d : Descriptor} {lk : Flock} (h : Sensible d lk) (hk : lk.kind ≠ .unlock) :
    ∃ b lk', getlk ofd t d lk = .ok (b, lk') ∧ (b = true ↔ Free t (owner ofd d) lk) := by
  obtain ⟨r, hr, hc⟩ := range_sensible h
  obtain ⟨h1, h2⟩ := fcntl_sensible ofd t h
  have hbad : ¬ (lk.kind = .read ∧ d.reads = false ∨ lk.kind = .write ∧ d.writes = false) := by
    rintro (⟨h1, h2⟩ | ⟨h1, h2⟩)
    · rw [h.reads h1] at h2; cases h2
    · rw [h.writes h1] at h2; cases h2
  have hset : Free t (owner ofd d) lk ↔ conflicts t (owner ofd d) (lk.kind = .write) r = [] := by
    have e : fcntlSet ofd t d lk = if lk.kind ≠ .unlock ∧ conflicts t (owner ofd d) (lk.kind = .write) r ≠ [] then .error .again
        else .ok (place t (owner ofd d) lk.kind r) := by
      unfold fcntlSet
      rw [if_neg (fun hh => hh.2 h.fresh), hr]
      dsimp only
      rw [if_neg hbad]
    constructor
    · intro hf
      by_contra hne
      obtain ⟨t', e', -⟩ := h1 hf
      rw [e, if_pos ⟨hk, hne⟩] at e'
      cases e'
    · intro hempty
      by_contra hf
      have e' := h2 hf
      rw [e, if_neg (fun hh => hh.2 hempty)] at e'
      cases e'
  unfold getlk fcntlGet
  rw [if_neg (fun hh => hh.2 h.fresh), hr]
  dsimp only
  rw [if_neg hk, hset]
  rcases conflicts t (owner ofd d) (lk.kind = .write) r with _ | ⟨e, es⟩
  · exact ⟨_, _, rfl, by simp⟩
  · refine ⟨_, _, rfl, ?_⟩
    cases e.write <;> simp

/-! ### All threads of all processes -/

theorem exclusive_filter {t : Table} (p : Entry → Bool) (h : Exclusive t) : Exclusive (t.filter p) := by
  intro b o o' w w' h1 h2 hne
  obtain ⟨e, he, h1⟩ := h1
  obtain ⟨e', he', h2⟩ := h2
  exact h b o o' w w' ⟨e, (List.mem_filter.1 he).1, h1⟩ ⟨e', (List.mem_filter.1 he').1, h2⟩ hne

theorem step_exclusive (ofd : Bool) {s : State} (h : Exclusive s.table) (e : Event) : Exclusive (step ofd s e).table := by
  have hends : ∀ w answer, (∀ t', answer = .ok t' → Exclusive t') → Exclusive (ends s w answer).table := by
    intro w answer ha
    unfold ends afterWait
    cases answer with
    | ok t' => exact ha t' rfl
    | error e =>
      dsimp only
      split <;> rename_i hm
      · exact h
      · split at hm
        · cases hm; exact h
        · split at hm
          · cases hm; exact h
          · cases hm
  cases e with
  | setlk n d lk =>
    unfold step
    dsimp only
    split
    · exact h
    · dsimp only
      unfold setlk
      split
      · rename_i t' ht
        exact fcntl_exclusive ht h
      · split <;> exact h
  | setlkw n d lk retry =>
    unfold step
    dsimp only
    split <;> exact h
  | look n =>
    unfold step
    dsimp only
    split
    · exact h
    · split
      · exact h
      · exact hends _ _ (fun t' ht => fcntl_exclusive ht h)
  | signal n =>
    unfold step
    dsimp only
    split
    · exact h
    · exact hends _ _ (fun t' ht => by cases ht)
  | close o => exact exclusive_filter _ h

/-- Whatever threads do, in whatever order, nobody can write what another reads or writes. -/
theorem C118_exclusive (ofd : Bool) (es : List Event) : Exclusive (run ofd {} es).table := by
  unfold run
  have : Exclusive ({} : State).table := by
    intro b o o' w w' h1
    obtain ⟨e, he, -⟩ := h1
    cases he
  generalize ({} : State) = s at this
  induction es generalizing s with
  | nil => exact this
  | cons e es ih => exact ih _ (step_exclusive ofd this e)

/-- Who closes a file has no locks any more, and others have theirs. -/
theorem C118_close (ofd : Bool) (s : State) (o o' b : Nat) (w : Bool) :
    Holds (step ofd s (.close o)).table o' b w ↔ o' ≠ o ∧ Holds s.table o' b w := by
  unfold step Holds
  simp only [List.mem_filter, bne_iff_ne, ne_eq]
  constructor
  · rintro ⟨e, ⟨h1, h2⟩, rfl, h4⟩
    exact ⟨h2, e, h1, rfl, h4⟩
  · rintro ⟨h, e, h1, rfl, h4⟩
    exact ⟨e, ⟨h1, h⟩, rfl, h4⟩

/-! ### Waiting -/

/-- A thread that waits with `ofd_setlkw` goes on as soon as the system finds that nobody has a lock that is in the way, and then it has
exactly what was asked for; until then it waits. -/
theorem C118_wait (ofd : Bool) (s : State) {w : Waiting} (hw : s.waiting.find? (·.thread == w.thread) = some w) (h : Sensible w.descriptor w.lk) :
    (Free s.table (owner ofd w.descriptor) w.lk →
      ∃ t', step ofd s (.look w.thread) = ⟨t', s.waiting.filter (·.thread != w.thread), (w.thread, .ok true) :: s.returned⟩ ∧
        Granted s.table t' (owner ofd w.descriptor) w.lk) ∧
    (¬ Free s.table (owner ofd w.descriptor) w.lk → step ofd s (.look w.thread) = s) := by
  obtain ⟨h1, h2⟩ := fcntl_sensible ofd s.table h
  unfold step
  dsimp only
  rw [hw]
  dsimp only
  constructor
  · intro hf
    obtain ⟨t', e, hg⟩ := h1 hf
    rw [e]
    exact ⟨t', rfl, hg⟩
  · intro hf
    rw [h2 hf]

/-- A signal does not end the waiting if it is to be retried; otherwise the call returns false and nothing has changed. -/
theorem C118_signal (ofd : Bool) (s : State) {w : Waiting} (hw : s.waiting.find? (·.thread == w.thread) = some w) :
    step ofd s (.signal w.thread) =
      if w.retry then s else ⟨s.table, s.waiting.filter (·.thread != w.thread), (w.thread, .ok false) :: s.returned⟩ := by
  unfold step
  dsimp only
  rw [hw]
  unfold ends afterWait
  cases hr : w.retry <;> simp [hr]

theorem returned_ends {s : State} {w : Waiting} {answer : Except Errno Table} {n : Nat} (h : (ends s w answer).returned = (n, .ok false) :: s.returned) :
    answer = .error .intr ∧ w.retry = false := by
  unfold ends at h
  split at h
  · have := congrArg List.length h
    simp at this
  · rename_i r t hm
    simp only [List.cons.injEq, Prod.mk.injEq, and_true] at h
    obtain ⟨-, rfl⟩ := h
    unfold afterWait at hm
    split at hm
    · cases hm
    · rename_i e
      split at hm
      · cases hm
      · rename_i he
        split at hm
        · rename_i hr
          exact ⟨by rw [not_not.1 he], by simpa using hr⟩
        · cases hm

/-- A call of `ofd_setlkw` that returns false has got a signal, and was not to be retried. -/
theorem C118_interrupted (ofd : Bool) (s : State) (e : Event) (n : Nat) (h : (step ofd s e).returned = (n, .ok false) :: s.returned)
    (hn : ∀ d lk, e ≠ .setlk n d lk) : e = .signal n ∧ ∃ w ∈ s.waiting, w.thread = n ∧ w.retry = false := by
  have hne : ∀ x : Nat × Outcome Bool, s.returned ≠ x :: s.returned := fun x hx => by
    have := congrArg List.length hx
    simp at this
  cases e with
  | setlk m d lk =>
    unfold step at h
    dsimp only at h
    split at h
    · exact absurd h (hne _)
    · simp only [List.cons.injEq, Prod.mk.injEq, and_true] at h
      exact absurd (by rw [h.1]) (hn d lk)
  | setlkw m d lk retry =>
    unfold step at h
    dsimp only at h
    split at h <;> exact absurd h (hne _)
  | look m =>
    unfold step at h
    dsimp only at h
    split at h
    · exact absurd h (hne _)
    · split at h
      · exact absurd h (hne _)
      · rename_i w hw _ hx
        have := (returned_ends h).1
        have hx2 : ∀ (d : Descriptor) (lk : Flock), fcntlSet ofd s.table d lk ≠ .error .intr := by
          intro d lk
          unfold fcntlSet range
          repeat' split
          all_goals first | (intro hh; cases hh; done) | skip
          all_goals
            rename_i hh
            repeat' split at hh
            all_goals first | (cases hh; done) | (injection hh with hh; subst hh; intro h9; cases h9)
        exact absurd this (hx2 _ _)
  | signal m =>
    unfold step at h
    dsimp only at h
    split at h
    · exact absurd h (hne _)
    · rename_i w hw
      have hr := returned_ends h
      have hm := List.find?_some hw
      have hmem := List.mem_of_find?_eq_some hw
      have hwm : w.thread = m := by simpa using hm
      have hnm : w.thread = n := by
        unfold ends afterWait at h
        rw [hr.2] at h
        simpa using h
      exact ⟨by rw [← hwm, hnm], w, hmem, hnm, hr.2⟩
  | close o => exact absurd h (hne _)

/-! ### Discrepancies -/

/-- Discrepancy: a request that `ofd_getlk` has found not to be possible cannot be used to lock, because the answer is written over it:
`ofd_setlk` throws instead of returning false. -/
theorem C118_violated_reuse (t : Table) {d : Descriptor} {lk lk' : Flock} (h : getlk true t d lk = .ok (false, lk')) (t2 : Table) :
    (setlk true t2 d lk').1 = .throws "cannot acquire lock" := by
  have hp : lk'.pid ≠ 0 := by
    unfold getlk at h
    split at h
    · cases h
    · rename_i x hx
      simp only [Outcome.ok.injEq, Prod.mk.injEq, decide_eq_false_iff_not] at h
      obtain ⟨hk, rfl⟩ := h
      unfold fcntlGet at hx
      split at hx
      · cases hx
      split at hx
      · cases hx
      split at hx
      · cases hx
      split at hx
      · injection hx with hx
        subst hx
        exact absurd rfl hk
      · injection hx with hx
        subst hx
        simp
  unfold setlk fcntlSet
  rw [if_pos ⟨rfl, hp⟩]
  rfl

/-- Discrepancy: on systems without locks of open file descriptions, threads of one process that have opened the file each for itself are
not kept apart: a lock to write is granted to both. -/
theorem C118_violated_process (d d' : Descriptor) (hp : d.process = d'.process) {lk : Flock} (h : Sensible d lk)
    (h' : Sensible d' lk) (es : List Event) (hw : ∀ e ∈ es, ∃ n x k, e = .setlk n x k ∧ x.process = d.process) :
    (setlk false (setlk false (run false {} es).table d lk).2 d' lk).1 = .ok true ∧ (setlk false (run false {} es).table d lk).1 = .ok true := by
  have own : ∀ (t : Table) (x : Descriptor) (k : Flock), (∀ e ∈ t, e.owner = d.process) → x.process = d.process →
      ∀ e ∈ (setlk false t x k).2, e.owner = d.process := by
    intro t x k ht hx e he
    unfold setlk at he
    split at he
    · rename_i t' hs
      unfold fcntlSet at hs
      split at hs
      · cases hs
      split at hs
      · cases hs
      split at hs
      · cases hs
      split at hs
      · cases hs
      injection hs with hs
      subst hs
      unfold place at he
      rcases List.mem_append.1 he with he | he
      · obtain ⟨e', he', hm⟩ := List.mem_flatMap.1 he
        split at hm
        · rw [(cut_same hm).1]
          exact ht _ he'
        · rw [List.mem_singleton] at hm
          subst hm
          exact ht _ he'
      · split at he
        · cases he
        · rw [List.mem_singleton] at he
          subst he
          exact hx
    · split at he <;> exact ht e he
  have all : ∀ e ∈ (run false {} es).table, e.owner = d.process := by
    unfold run
    have h0 : ∀ e ∈ ({} : State).table, e.owner = d.process := by intro e he; cases he
    generalize ({} : State) = s at h0
    induction es generalizing s with
    | nil => exact h0
    | cons e es ih =>
      refine ih (fun e' he' => hw e' (List.mem_cons_of_mem _ he')) _ ?_
      obtain ⟨n, x, k, rfl, hx⟩ := hw e List.mem_cons_self
      unfold step
      dsimp only
      split
      · exact h0
      · exact own _ _ _ h0 hx
  have free : ∀ (t : Table) (x : Descriptor), (∀ e ∈ t, e.owner = d.process) → x.process = d.process → Free t (owner false x) lk := by
    intro t x ht hx _ b _ o' w ho hh
    obtain ⟨e, he, rfl, -⟩ := hh
    exact absurd ((ht e he).trans hx.symm) ho
  obtain ⟨b1, t1, e1, hb1, -, -⟩ := C118_setlk false (run false {} es).table h
  obtain ⟨b2, t2, e2, hb2, -, -⟩ := C118_setlk false (setlk false (run false {} es).table d lk).2 h'
  rw [e2, e1]
  exact ⟨by rw [hb2.2 (free _ _ (own _ _ _ all rfl) hp.symm)], by rw [hb1.2 (free _ _ all rfl)]⟩

/-! ### Examples -/

/-- Two descriptions: the second waits for the first ten bytes, and has them after they are unlocked. -/
example : (run true {} [.setlk 1 ⟨1, 1, true, true⟩ ⟨.write, 0, 10, 0⟩, .setlk 2 ⟨1, 2, true, true⟩ ⟨.read, 9, 0, 0⟩,
    .setlkw 2 ⟨1, 2, true, true⟩ ⟨.read, 9, 0, 0⟩ true, .look 2, .signal 2, .setlk 1 ⟨1, 1, true, true⟩ ⟨.unlock, 10, -3, 0⟩, .look 2]).returned =
    [(2, .ok true), (1, .ok true), (2, .ok false), (1, .ok true)] := by decide

example : Sensible ⟨1, 1, true, true⟩ ⟨.unlock, 10, -3, 0⟩ := ⟨by decide, by decide, by decide, rfl, by decide, by decide⟩

example : Sensible ⟨1, 1, true, true⟩ ⟨.write, 0, 10, 0⟩ ∧ Holds (setlk true [] ⟨1, 1, true, true⟩ ⟨.write, 0, 10, 0⟩).2 1 3 true :=
  ⟨⟨by decide, by decide, by decide, rfl, by decide, by decide⟩, ⟨1, true, 0, some 10⟩, by decide, rfl, rfl, by decide, by decide⟩

/-- A request that was not possible, used again. -/
example : ∃ lk', getlk true [⟨1, true, 0, some 10⟩] ⟨1, 2, true, true⟩ ⟨.read, 9, 0, 0⟩ = .ok (false, lk') := ⟨_, rfl⟩

end Msat.Props
