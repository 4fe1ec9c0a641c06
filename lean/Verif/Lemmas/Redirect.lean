import Verif.Spec.Redirect
import Mathlib.Tactic.Set
import Mathlib.Tactic.ByContra

namespace Msat.Redirect
open Msat RedirectSpec

theorem get_put {t : Table} {fd : Int} {x : Option Obj} {j : Int} (h : 0 ≤ fd) :
    (t.put fd x).get j = if j = fd then x else t.get j := by
  unfold Table.get Table.put
  by_cases hj : j < 0
  · rw [if_pos hj, if_neg (by omega), if_pos hj]
  rw [if_neg hj, if_neg hj]
  simp only [List.getD_eq_getElem?_getD, List.getElem?_set, List.length_append, List.length_replicate]
  by_cases e : j = fd
  · subst e
    rw [if_pos rfl, if_pos rfl, if_pos (by omega)]; rfl
  · rw [if_neg e, if_neg (by omega)]
    rw [List.getElem?_append]
    split
    · rfl
    · rename_i hl
      rw [List.getElem?_replicate]
      rw [show t[j.toNat]? = none from List.getElem?_eq_none (by omega)]
      split <;> rfl

theorem get_lowest (t : Table) : t.get t.lowest = none := by
  unfold Table.get
  rw [if_neg (by omega), Int.toNat_natCast]
  induction t with
  | nil => rfl
  | cons x t ih =>
    cases x with
    | none => rfl
    | some x => rw [Table.lowest, Nat.add_comm, List.getD_cons_succ, ih]

theorem get_below (t : Table) (i : Nat) (h : i < t.lowest) : t.get i ≠ none := by
  unfold Table.get
  rw [if_neg (by omega), Int.toNat_natCast]
  induction t generalizing i with
  | nil => cases h
  | cons x t ih =>
    cases x with
    | none => cases h
    | some x =>
      cases i with
      | zero => simp
      | succ i => rw [List.getD_cons_succ]; exact ih i (by rw [Table.lowest] at h; omega)

theorem lowest_ge {t : Table} (h : StdOpen t) : (3 : Int) ≤ t.lowest := by
  obtain ⟨h0, h1, h2⟩ := h
  have e := get_lowest t
  by_contra hc
  have : (t.lowest : Int) = 0 ∨ (t.lowest : Int) = 1 ∨ (t.lowest : Int) = 2 := by omega
  rcases this with h | h | h <;> rw [h] at e <;> contradiction

theorem get_neg {t : Table} {j : Int} (h : j < 0) : t.get j = none := by unfold Table.get; rw [if_pos h]

theorem nonneg_of_open {t : Table} {j : Int} (h : t.get j ≠ none) : 0 ≤ j := by
  by_contra hc
  exact h (get_neg (by omega))

theorem close_open {t : Table} {fd : Int} (h : t.get fd ≠ none) :
    ∃ t', close t fd = some t' ∧ ∀ j, t'.get j = if j = fd then none else t.get j := by
  unfold close
  cases e : t.get fd with
  | none => exact absurd e h
  | some x => exact ⟨_, rfl, fun j => get_put (nonneg_of_open h)⟩

theorem redirect_open {t : Table} {a b : Int} (h : t.get a ≠ none) (hb : 0 ≤ b) (hn : a ≠ b) :
    ∃ t', redirect t a b = some t' ∧
      ∀ j, t'.get j = if j = a then none else if j = b then t.get a else t.get j := by
  unfold redirect dup2
  cases e : t.get a with
  | none => exact absurd e h
  | some x =>
    have h2 : (t.put b (some x)).get a ≠ none := by
      rw [get_put hb, if_neg hn, e]; simp
    obtain ⟨t', e', g⟩ := close_open h2
    refine ⟨t', e', fun j => ?_⟩
    rw [g j, get_put hb]

/-! ### Before the process is made -/

/-- The descriptors that a stream uses up in the child. -/
def used (s : Stream) (src : Int) : List Int :=
  match s.action with
  | .fd => [src]
  | .pipe => [s.ends.1, s.ends.2]
  | _ => []

theorem preForkStream_spec {t : Table} {n : Nat} {s : Stream} (h : StdOpen t) :
    ∃ t' s', preForkStream t n s = (t', s') ∧ s'.action = s.action ∧ StdOpen t' ∧
      (s.action ≠ .pipe → t' = t ∧ s' = s) ∧
      (s.action = .pipe → 3 ≤ s'.ends.1 ∧ 3 ≤ s'.ends.2 ∧ s'.ends.1 ≠ s'.ends.2 ∧ t.get s'.ends.1 = none ∧ t.get s'.ends.2 = none ∧
        t'.get s'.ends.1 = some (.pipeR n) ∧ t'.get s'.ends.2 = some (.pipeW n) ∧
        ∀ j, j ≠ s'.ends.1 → j ≠ s'.ends.2 → t'.get j = t.get j) := by
  by_cases ha : s.action = .pipe
  · have hl := lowest_ge h
    set t1 := t.put t.lowest (some (.pipeR n)) with ht1
    have g1 : ∀ j, t1.get j = if j = t.lowest then some (.pipeR n) else t.get j := fun j => get_put (by omega)
    have h1 : StdOpen t1 := by
      unfold StdOpen
      rw [g1, g1, g1, if_neg (by omega), if_neg (by omega), if_neg (by omega)]
      exact h
    have hl1 := lowest_ge h1
    have hn : (t1.lowest : Int) ≠ t.lowest := by
      intro e
      have := get_lowest t1
      rw [e, g1, if_pos rfl] at this
      cases this
    have g2 : ∀ j, (t1.put t1.lowest (some (.pipeW n))).get j = if j = t1.lowest then some (.pipeW n) else t1.get j :=
      fun j => get_put (by omega)
    refine ⟨t1.put t1.lowest (some (.pipeW n)), { s with ends := (t.lowest, t1.lowest) }, ?_, rfl, ?_,
      fun hc => absurd ha hc, fun _ => ⟨hl, hl1, fun e => hn e.symm, get_lowest t, ?_, ?_, ?_, ?_⟩⟩
    · unfold preForkStream; rw [ha]; rfl
    · unfold StdOpen
      rw [g2, g2, g2, if_neg (by omega), if_neg (by omega), if_neg (by omega)]
      exact h1
    · have := get_lowest t1
      rw [g1, if_neg hn] at this; exact this
    · show Table.get _ t.lowest = _
      rw [g2, if_neg (fun e => hn e.symm), g1, if_pos rfl]
    · show Table.get _ t1.lowest = _
      rw [g2, if_pos rfl]
    · intro j h1 h2
      change j ≠ (t.lowest : Int) at h1
      change j ≠ (t1.lowest : Int) at h2
      rw [g2, if_neg h2, g1, if_neg h1]
  · refine ⟨t, s, ?_, rfl, h, fun _ => ⟨rfl, rfl⟩, fun hc => absurd hc ha⟩
    unfold preForkStream
    cases e : s.action <;> first | rfl | exact absurd e ha

/-! ### In the child -/

/-- One stream, whichever it is. -/
def stage (s : Setup) (a : Action) (src other target : Int) : Option Setup :=
  match a with
  | .fd => do
    let t ← redirect s.table src target
    pure { s with table := t }
  | .pipe => do
    let t ← close s.table other
    let t ← redirect t src target
    pure { s with table := t }
  | .devnull => toDevnull s target
  | _ => some s

theorem childStdin_eq (s : Setup) (i : Stream) : childStdin s i = stage s i.action i.ends.1 i.ends.2 0 := by
  unfold childStdin stage; cases i.action <;> rfl

theorem childOut_eq (s : Setup) (i : Stream) (k : Int) : childOut s i k = stage s i.action i.ends.2 i.ends.1 k := by
  unfold childOut stage; cases i.action <;> rfl

/-- What is known on the way: the standard descriptors are `std`, the others `F`, save that of `/dev/null`. -/
structure Inv (s : Setup) (std : Int → Option Obj) (F : Int → Option Obj) : Prop where
  std_eq : ∀ j, 0 ≤ j → j < 3 → s.table.get j = std j
  std_open : ∀ j, 0 ≤ j → j < 3 → std j ≠ none
  rest : ∀ j, 3 ≤ j → j ≠ s.devnull → s.table.get j = F j
  dev : s.devnull = -1 ∨ 3 ≤ s.devnull ∧ s.table.get s.devnull = some .devnull ∧ F s.devnull = none

theorem Inv.stdOpen {s : Setup} {std F} (h : Inv s std F) : StdOpen s.table :=
  ⟨by rw [h.std_eq 0 (by omega) (by omega)]; exact h.std_open 0 (by omega) (by omega),
   by rw [h.std_eq 1 (by omega) (by omega)]; exact h.std_open 1 (by omega) (by omega),
   by rw [h.std_eq 2 (by omega) (by omega)]; exact h.std_open 2 (by omega) (by omega)⟩

/-- What a stream becomes. -/
def became (a : Action) (src : Int) (own : Option Obj) (F : Int → Option Obj) : Option Obj :=
  match a with
  | .fd | .pipe => F src
  | .devnull => some .devnull
  | _ => own

theorem Inv.ne_dev {s : Setup} {std F} (h : Inv s std F) {j : Int} (hj : 3 ≤ j) (ho : F j ≠ none) : j ≠ s.devnull := by
  intro e
  rcases h.dev with h' | ⟨_, _, h'⟩
  · omega
  · rw [← e] at h'; exact ho h'

theorem stage_spec {s : Setup} {std F : Int → Option Obj} {a : Action} {src other target : Int} (h : Inv s std F)
    (ht : 0 ≤ target ∧ target < 3)
    (hs : a = .fd ∨ a = .pipe → 3 ≤ src ∧ F src ≠ none)
    (ho : a = .pipe → 3 ≤ other ∧ F other ≠ none ∧ src ≠ other) :
    ∃ s', stage s a src other target = some s' ∧
      Inv s' (fun j => if j = target then became a src (std j) F else std j)
        (fun j => if (a = .fd ∨ a = .pipe) ∧ j = src ∨ a = .pipe ∧ j = other then none else F j) := by
  cases a with
  | unchanged =>
    refine ⟨s, rfl, ?_⟩
    simpa [became] using h
  | stdout =>
    refine ⟨s, rfl, ?_⟩
    simpa [became] using h
  | fd =>
    obtain ⟨h3, ho'⟩ := hs (.inl rfl)
    have e := h.rest src h3 (h.ne_dev h3 ho')
    obtain ⟨t', e1, g⟩ := redirect_open (t := s.table) (a := src) (b := target) (by rw [e]; exact ho') ht.1 (by omega)
    refine ⟨{ s with table := t' }, by simp [stage, e1], ?_, ?_, ?_, ?_⟩
    · intro j h0 hj
      show t'.get j = _
      rw [g j, if_neg (by omega), e, h.std_eq j h0 hj]; rfl
    · intro j h0 hj
      simp only [became]
      split
      · exact ho'
      · exact h.std_open j h0 hj
    · intro j hj hd
      show t'.get j = _
      rw [g j]
      by_cases c : j = src
      · simp [c]
      · rw [if_neg c, if_neg (by omega), h.rest j hj hd]; simp [c]
    · rcases h.dev with h' | ⟨h1, h2, h4⟩
      · exact .inl h'
      · have := h.ne_dev h3 ho'
        refine .inr ⟨h1, ?_, ?_⟩
        · show t'.get s.devnull = _
          rw [g, if_neg (fun x => this x.symm), if_neg (by omega), h2]
        · simp [h4]
  | pipe =>
    obtain ⟨h3, ho'⟩ := hs (.inr rfl)
    obtain ⟨o3, oo, on⟩ := ho rfl
    have e := h.rest src h3 (h.ne_dev h3 ho')
    have eo := h.rest other o3 (h.ne_dev o3 oo)
    obtain ⟨t1, e1, g1⟩ := close_open (t := s.table) (fd := other) (by rw [eo]; exact oo)
    obtain ⟨t', e2, g⟩ := redirect_open (t := t1) (a := src) (b := target)
      (by rw [g1, if_neg on, e]; exact ho') ht.1 (by omega)
    refine ⟨{ s with table := t' }, by simp [stage, e1, e2], ?_, ?_, ?_, ?_⟩
    · intro j h0 hj
      show t'.get j = _
      rw [g j, if_neg (by omega), g1 src, g1 j, if_neg on, if_neg (show ¬ j = other by omega), e, h.std_eq j h0 hj]; rfl
    · intro j h0 hj
      simp only [became]
      split
      · exact ho'
      · exact h.std_open j h0 hj
    · intro j hj hd
      show t'.get j = _
      rw [g j]
      by_cases c : j = src
      · simp [c]
      · rw [if_neg c, if_neg (by omega), g1]
        by_cases c' : j = other
        · simp [c']
        · rw [if_neg c', h.rest j hj hd]; simp [c, c']
    · rcases h.dev with h' | ⟨h1, h2, h4⟩
      · exact .inl h'
      · have n1 := h.ne_dev h3 ho'
        have n2 := h.ne_dev o3 oo
        refine .inr ⟨h1, ?_, ?_⟩
        · show t'.get s.devnull = _
          rw [g, if_neg (fun x => n1 x.symm), if_neg (by omega), g1, if_neg (fun x => n2 x.symm), h2]
        · simp [h4]
  | devnull =>
    have key : ∀ s : Setup, Inv s std F → s.devnull ≠ -1 → ∃ s' : Setup, (do
          let t ← dup2 s.table s.devnull target
          pure { s with table := t } : Option Setup) = some s' ∧
        Inv s' (fun j => if j = target then some .devnull else std j) F := by
      intro s h hd
      rcases h.dev with h' | ⟨h1, h2, h4⟩
      · exact absurd h' hd
      · have gp : ∀ j, (s.table.put target (some .devnull)).get j = if j = target then some .devnull else s.table.get j :=
          fun j => get_put ht.1
        refine ⟨{ s with table := s.table.put target (some .devnull) }, by simp [dup2, h2], ?_, ?_, ?_, ?_⟩
        · intro j h0 hj
          show Table.get (Table.put _ _ _) j = _
          rw [gp, h.std_eq j h0 hj]
        · intro j h0 hj
          show (if _ then _ else _) ≠ none
          split
          · simp
          · exact h.std_open j h0 hj
        · intro j hj hd
          show Table.get (Table.put _ _ _) j = _
          rw [gp, if_neg (by omega), h.rest j hj hd]
        · refine .inr ⟨h1, ?_, h4⟩
          show Table.get (Table.put _ _ _) s.devnull = _
          rw [gp, if_neg (by omega), h2]
    have hF : (fun j => if (Action.devnull = .fd ∨ Action.devnull = .pipe) ∧ j = src ∨ Action.devnull = .pipe ∧ j = other
        then none else F j) = F := by
      funext j; simp
    rw [hF]
    simp only [became]
    show ∃ s', toDevnull s target = some s' ∧ _
    unfold toDevnull
    by_cases hd : s.devnull = -1
    · rw [if_pos hd]
      refine key ⟨s.table.put s.table.lowest (some .devnull), s.table.lowest⟩ ?_ (by show (s.table.lowest : Int) ≠ -1; omega)
      have hl := lowest_ge h.stdOpen
      have gp : ∀ j, (s.table.put s.table.lowest (some .devnull)).get j = if j = s.table.lowest then some .devnull else s.table.get j :=
        fun j => get_put (by omega)
      refine ⟨?_, h.std_open, ?_, .inr ⟨hl, ?_, ?_⟩⟩
      · intro j h0 hj
        show Table.get (Table.put _ _ _) j = _
        rw [gp, if_neg (by omega), h.std_eq j h0 hj]
      · intro j hj hn
        change j ≠ (s.table.lowest : Int) at hn
        show Table.get (Table.put _ _ _) j = _
        rw [gp, if_neg hn, h.rest j hj (by omega)]
      · show Table.get (Table.put _ _ _) s.table.lowest = _
        rw [gp, if_pos rfl]
      · show F s.table.lowest = none
        rw [← h.rest _ hl (by omega)]; exact get_lowest _
    · rw [if_neg hd]
      exact key s h hd

theorem get_closeFds (t : Table) (pass : List Int) (j : Int) :
    (closeFds t pass).get j = if 3 ≤ j ∧ j ∉ pass then none else t.get j := by
  unfold closeFds Table.get
  by_cases hj : j < 0
  · rw [if_pos hj, if_neg (by omega), if_pos hj]
  · rw [if_neg hj, if_neg hj]
    simp only [List.getD_eq_getElem?_getD, List.getElem?_mapIdx]
    obtain ⟨n, rfl⟩ := Int.eq_ofNat_of_zero_le (show 0 ≤ j by omega)
    simp only [Int.toNat_natCast]
    have : ((3 : Int) ≤ n ∧ (n : Int) ∉ pass) ↔ (3 ≤ n ∧ (n : Int) ∉ pass) :=
      ⟨fun ⟨a, b⟩ => ⟨by omega, b⟩, fun ⟨a, b⟩ => ⟨by omega, b⟩⟩
    simp only [this]
    cases t[n]? <;> simp

end Msat.Redirect
