import Verif.Lemmas.Redirect

/-
C72: file descriptors of a child process.
-/
namespace Msat.Props
open Msat Redirect RedirectSpec

/-- A descriptor that is open stays as it is while pipes are made. -/
theorem preForkStream_keep {t : Table} {n : Nat} {s : Stream} (h : StdOpen t) {j : Int} (ho : t.get j ≠ none) :
    (preForkStream t n s).1.get j = t.get j := by
  obtain ⟨t', s', e, -, -, h1, h2⟩ := preForkStream_spec (n := n) (s := s) h
  rw [e]
  by_cases ha : s.action = .pipe
  · obtain ⟨-, -, -, n1, n2, -, -, k⟩ := h2 ha
    refine k j ?_ ?_
    · rintro rfl; exact ho n1
    · rintro rfl; exact ho n2
  · rw [(h1 ha).1]

/-- The standard descriptors of the child are those asked for.  Of the others it has those of the parent, save those that were moved
and, unless told otherwise, those that are not in `pass_fds`.  What is missing is in the theorems that follow. -/
theorem C72_child_partial (t : Table) (c : Child) (hs : StdOpen t) (hd : Distinct t c) :
    ∃ t', (fork t c).2 = some t' ∧ t'.get 0 = stdin t c ∧ t'.get 1 = stdout t c ∧ t'.get 2 = stderr t c ∧
      ∀ j, 3 ≤ j → t'.get j =
        if j ∈ moved c ∨ (c.closeFds = true ∨ c.passFds ≠ []) ∧ j ∉ c.passFds then none else t.get j := by
  obtain ⟨t1, i, e0, ai, s1, n0, p0⟩ := preForkStream_spec (n := 0) (s := c.stdin) hs
  obtain ⟨t2, o, e1, ao, s2, n1, p1⟩ := preForkStream_spec (n := 1) (s := c.stdout) s1
  obtain ⟨t3, e, e2, ae, s3, n2, p2⟩ := preForkStream_spec (n := 2) (s := c.stderr) s2
  have k0 : ∀ j, t.get j ≠ none → t1.get j = t.get j := fun j h => by
    have := preForkStream_keep (n := 0) (s := c.stdin) hs h; rwa [e0] at this
  have k1 : ∀ j, t1.get j ≠ none → t2.get j = t1.get j := fun j h => by
    have := preForkStream_keep (n := 1) (s := c.stdout) s1 h; rwa [e1] at this
  have k2 : ∀ j, t2.get j ≠ none → t3.get j = t2.get j := fun j h => by
    have := preForkStream_keep (n := 2) (s := c.stderr) s2 h; rwa [e2] at this
  have k13 : ∀ j, t1.get j ≠ none → t3.get j = t1.get j := fun j h => by
    rw [k2 j (by rw [k1 j h]; exact h), k1 j h]
  have k03 : ∀ j, t.get j ≠ none → t3.get j = t.get j := fun j h => by
    rw [k13 j (by rw [k0 j h]; exact h), k0 j h]
  have k02 : ∀ j, t.get j ≠ none → t2.get j = t.get j := fun j h => by
    rw [k1 j (by rw [k0 j h]; exact h), k0 j h]
  obtain ⟨hm, hnd⟩ := hd
  have mi : c.stdin.action = .fd → c.stdin.ends.1 ∈ moved c := fun h => by simp [moved, h]
  have mo : c.stdout.action = .fd → c.stdout.ends.2 ∈ moved c := fun h => by simp [moved, h]
  have me : c.stderr.action = .fd → c.stderr.ends.2 ∈ moved c := fun h => by simp [moved, h]
  have dio : c.stdin.action = .fd → c.stdout.action = .fd → c.stdin.ends.1 ≠ c.stdout.ends.2 := fun h h' e => by
    simp [moved, h, h', e] at hnd
  have die : c.stdin.action = .fd → c.stderr.action = .fd → c.stdin.ends.1 ≠ c.stderr.ends.2 := fun h h' e => by
    simp [moved, h, h', e] at hnd
  have doe : c.stdout.action = .fd → c.stderr.action = .fd → c.stdout.ends.2 ≠ c.stderr.ends.2 := fun h h' e => by
    simp [moved, h, h', e] at hnd
    split at hnd <;> simp at hnd
  have nfp : ∀ {a : Action}, a = .fd → a ≠ .pipe := fun h => by rw [h]; decide
  -- the descriptors that each stream uses up
  have U0 : ∀ j, ((i.action = .fd ∨ i.action = .pipe) ∧ j = i.ends.1 ∨ i.action = .pipe ∧ j = i.ends.2) →
      3 ≤ j ∧ ((c.stdin.action = .fd ∧ j = c.stdin.ends.1 ∧ t.get j ≠ none) ∨
        (c.stdin.action = .pipe ∧ t.get j = none ∧ t1.get j ≠ none)) := by
    rintro j (⟨h | h, rfl⟩ | ⟨h, rfl⟩) <;> rw [ai] at h
    · rw [(n0 (nfp h)).2]
      exact ⟨(hm _ (mi h)).1, .inl ⟨h, rfl, (hm _ (mi h)).2⟩⟩
    · obtain ⟨a, -, -, b, -, d, -⟩ := p0 h
      exact ⟨a, .inr ⟨h, b, by rw [d]; simp⟩⟩
    · obtain ⟨-, a, -, -, b, -, d, -⟩ := p0 h
      exact ⟨a, .inr ⟨h, b, by rw [d]; simp⟩⟩
  have U1 : ∀ j, ((o.action = .fd ∨ o.action = .pipe) ∧ j = o.ends.2 ∨ o.action = .pipe ∧ j = o.ends.1) →
      3 ≤ j ∧ ((c.stdout.action = .fd ∧ j = c.stdout.ends.2 ∧ t.get j ≠ none) ∨
        (c.stdout.action = .pipe ∧ t1.get j = none ∧ t2.get j ≠ none)) := by
    rintro j (⟨h | h, rfl⟩ | ⟨h, rfl⟩) <;> rw [ao] at h
    · rw [(n1 (nfp h)).2]
      exact ⟨(hm _ (mo h)).1, .inl ⟨h, rfl, (hm _ (mo h)).2⟩⟩
    · obtain ⟨-, a, -, -, b, -, d, -⟩ := p1 h
      exact ⟨a, .inr ⟨h, b, by rw [d]; simp⟩⟩
    · obtain ⟨a, -, -, b, -, d, -⟩ := p1 h
      exact ⟨a, .inr ⟨h, b, by rw [d]; simp⟩⟩
  have U2 : ∀ j, ((e.action = .fd ∨ e.action = .pipe) ∧ j = e.ends.2 ∨ e.action = .pipe ∧ j = e.ends.1) →
      3 ≤ j ∧ ((c.stderr.action = .fd ∧ j = c.stderr.ends.2 ∧ t.get j ≠ none) ∨
        (c.stderr.action = .pipe ∧ t2.get j = none ∧ t3.get j ≠ none)) := by
    rintro j (⟨h | h, rfl⟩ | ⟨h, rfl⟩) <;> rw [ae] at h
    · rw [(n2 (nfp h)).2]
      exact ⟨(hm _ (me h)).1, .inl ⟨h, rfl, (hm _ (me h)).2⟩⟩
    · obtain ⟨-, a, -, -, b, -, d, -⟩ := p2 h
      exact ⟨a, .inr ⟨h, b, by rw [d]; simp⟩⟩
    · obtain ⟨a, -, -, b, -, d, -⟩ := p2 h
      exact ⟨a, .inr ⟨h, b, by rw [d]; simp⟩⟩
  have D01 : ∀ j, ((o.action = .fd ∨ o.action = .pipe) ∧ j = o.ends.2 ∨ o.action = .pipe ∧ j = o.ends.1) →
      ¬ ((i.action = .fd ∨ i.action = .pipe) ∧ j = i.ends.1 ∨ i.action = .pipe ∧ j = i.ends.2) := by
    intro j a b
    rcases (U0 j b).2 with ⟨h, h', h''⟩ | ⟨h, h', h''⟩ <;> rcases (U1 j a).2 with ⟨g, g', g''⟩ | ⟨g, g', g''⟩
    · exact dio h g (h'.symm.trans g')
    · rw [k0 j h''] at g'; exact h'' g'
    · exact g'' h'
    · exact h'' g'
  have D02 : ∀ j, ((e.action = .fd ∨ e.action = .pipe) ∧ j = e.ends.2 ∨ e.action = .pipe ∧ j = e.ends.1) →
      ¬ ((i.action = .fd ∨ i.action = .pipe) ∧ j = i.ends.1 ∨ i.action = .pipe ∧ j = i.ends.2) := by
    intro j a b
    rcases (U0 j b).2 with ⟨h, h', h''⟩ | ⟨h, h', h''⟩ <;> rcases (U2 j a).2 with ⟨g, g', g''⟩ | ⟨g, g', g''⟩
    · exact die h g (h'.symm.trans g')
    · rw [k02 j h''] at g'; exact h'' g'
    · exact g'' h'
    · rw [k1 j h''] at g'; exact h'' g'
  have D12 : ∀ j, ((e.action = .fd ∨ e.action = .pipe) ∧ j = e.ends.2 ∨ e.action = .pipe ∧ j = e.ends.1) →
      ¬ ((o.action = .fd ∨ o.action = .pipe) ∧ j = o.ends.2 ∨ o.action = .pipe ∧ j = o.ends.1) := by
    intro j a b
    rcases (U1 j b).2 with ⟨h, h', h''⟩ | ⟨h, h', h''⟩ <;> rcases (U2 j a).2 with ⟨g, g', g''⟩ | ⟨g, g', g''⟩
    · exact doe h g (h'.symm.trans g')
    · rw [k02 j h''] at g'; exact h'' g'
    · exact g'' (by by_contra hc; rw [k0 j hc] at h'; exact hc h')
    · exact h'' g'
  -- standard input
  have I0 : Inv ⟨t3, -1⟩ t3.get t3.get :=
    ⟨fun _ _ _ => rfl, fun j h0 hj => by
      rcases s3 with ⟨a, b, c⟩
      have : j = 0 ∨ j = 1 ∨ j = 2 := by omega
      rcases this with rfl | rfl | rfl <;> assumption, fun _ _ _ => rfl, .inl rfl⟩
  have o3_0 : ∀ j, ((i.action = .fd ∨ i.action = .pipe) ∧ j = i.ends.1 ∨ i.action = .pipe ∧ j = i.ends.2) →
      t3.get j ≠ none := by
    intro j h
    rcases (U0 j h).2 with ⟨-, -, h'⟩ | ⟨-, -, h'⟩
    · rw [k03 j h']; exact h'
    · rw [k13 j h']; exact h'
  have o3_1 : ∀ j, ((o.action = .fd ∨ o.action = .pipe) ∧ j = o.ends.2 ∨ o.action = .pipe ∧ j = o.ends.1) →
      t3.get j ≠ none := by
    intro j h
    rcases (U1 j h).2 with ⟨-, -, h'⟩ | ⟨-, -, h'⟩
    · rw [k03 j h']; exact h'
    · rw [k2 j h']; exact h'
  have o3_2 : ∀ j, ((e.action = .fd ∨ e.action = .pipe) ∧ j = e.ends.2 ∨ e.action = .pipe ∧ j = e.ends.1) →
      t3.get j ≠ none := by
    intro j h
    rcases (U2 j h).2 with ⟨-, -, h'⟩ | ⟨-, -, h'⟩
    · rw [k03 j h']; exact h'
    · exact h'
  obtain ⟨u1, r1, I1⟩ := stage_spec (a := i.action) (src := i.ends.1) (other := i.ends.2) (target := 0) I0 (by omega)
    (fun h => ⟨(U0 _ (.inl ⟨h, rfl⟩)).1, o3_0 _ (.inl ⟨h, rfl⟩)⟩)
    (fun h => ⟨(U0 _ (.inr ⟨h, rfl⟩)).1, o3_0 _ (.inr ⟨h, rfl⟩), by rw [ai] at h; exact (p0 h).2.2.1⟩)
  obtain ⟨u2, r2, I2⟩ := stage_spec (a := o.action) (src := o.ends.2) (other := o.ends.1) (target := 1) I1 (by omega)
    (fun h => ⟨(U1 _ (.inl ⟨h, rfl⟩)).1, by
      show ite _ _ _ ≠ none; rw [if_neg (D01 _ (.inl ⟨h, rfl⟩))]; exact o3_1 _ (.inl ⟨h, rfl⟩)⟩)
    (fun h => ⟨(U1 _ (.inr ⟨h, rfl⟩)).1, by
      show ite _ _ _ ≠ none; rw [if_neg (D01 _ (.inr ⟨h, rfl⟩))]; exact o3_1 _ (.inr ⟨h, rfl⟩),
      by rw [ao] at h; exact (p1 h).2.2.1.symm⟩)
  -- standard error
  have st : ∃ u3 : Setup, childStderr u2 e = some u3 ∧ ∃ std F, Inv u3 std F ∧ std 0 = stdin t c ∧ std 1 = stdout t c ∧
      std 2 = stderr t c ∧ ∀ j, 3 ≤ j → F j = if j ∈ moved c then none else t.get j := by
    have q0 : became i.action i.ends.1 (t3.get 0) t3.get = stdin t c := by
      unfold stdin; rw [ai]
      cases ha : c.stdin.action with
      | fd => 
        have e' := (n0 (nfp ha)).2
        simp only [became]; rw [e', k03 _ (hm _ (mi ha)).2]
      | pipe =>
        have := (p0 ha).2.2.2.2.2.1
        simp only [became]; rw [k13 _ (by rw [this]; simp), this]
      | devnull => rfl
      | stdout => exact k03 _ hs.1
      | unchanged => exact k03 _ hs.1
    have q1 : became o.action o.ends.2 (t3.get 1)
        (fun j => if (i.action = .fd ∨ i.action = .pipe) ∧ j = i.ends.1 ∨ i.action = .pipe ∧ j = i.ends.2 then none
          else t3.get j) = stdout t c := by
      unfold stdout; rw [ao]
      cases ha : c.stdout.action with
      | fd =>
        have e' := (n1 (nfp ha)).2
        simp only [became]
        rw [if_neg (D01 _ (.inl ⟨.inl (ao.trans ha), rfl⟩)), e', k03 _ (hm _ (mo ha)).2]
      | pipe =>
        have := (p1 ha).2.2.2.2.2.2.1
        simp only [became]
        rw [if_neg (D01 _ (.inl ⟨.inr (ao.trans ha), rfl⟩)), k2 _ (by rw [this]; simp), this]
      | devnull => rfl
      | stdout => exact k03 _ hs.2.1
      | unchanged => exact k03 _ hs.2.1
    have rest : ∀ j, 3 ≤ j →
        (if (e.action = .fd ∨ e.action = .pipe) ∧ j = e.ends.2 ∨ e.action = .pipe ∧ j = e.ends.1 then none
          else if (o.action = .fd ∨ o.action = .pipe) ∧ j = o.ends.2 ∨ o.action = .pipe ∧ j = o.ends.1 then none
          else if (i.action = .fd ∨ i.action = .pipe) ∧ j = i.ends.1 ∨ i.action = .pipe ∧ j = i.ends.2 then none
          else t3.get j) = if j ∈ moved c then none else t.get j := by
      intro j hj
      by_cases hmv : j ∈ moved c
      · rw [if_pos hmv]
        have : (c.stdin.action = .fd ∧ j = c.stdin.ends.1) ∨ (c.stdout.action = .fd ∧ j = c.stdout.ends.2) ∨
            (c.stderr.action = .fd ∧ j = c.stderr.ends.2) := by
          unfold moved at hmv
          simp only [List.mem_append] at hmv
          rcases hmv with (h | h) | h
          · split at h
            · rename_i g; exact .inl ⟨g, by simpa using h⟩
            · cases h
          · split at h
            · rename_i g; exact .inr (.inl ⟨g, by simpa using h⟩)
            · cases h
          · split at h
            · rename_i g; exact .inr (.inr ⟨g, by simpa using h⟩)
            · cases h
        rcases this with ⟨h, h'⟩ | ⟨h, h'⟩ | ⟨h, h'⟩
        · rw [if_pos (show (i.action = .fd ∨ i.action = .pipe) ∧ j = i.ends.1 ∨ _ from
            .inl ⟨.inl (ai.trans h), by rw [(n0 (nfp h)).2]; exact h'⟩)]
          split
          · rfl
          · split <;> rfl
        · rw [if_pos (show (o.action = .fd ∨ o.action = .pipe) ∧ j = o.ends.2 ∨ _ from
            .inl ⟨.inl (ao.trans h), by rw [(n1 (nfp h)).2]; exact h'⟩)]
          split <;> rfl
        · rw [if_pos (show (e.action = .fd ∨ e.action = .pipe) ∧ j = e.ends.2 ∨ _ from
            .inl ⟨.inl (ae.trans h), by rw [(n2 (nfp h)).2]; exact h'⟩)]
      · rw [if_neg hmv]
        by_cases c2 : (e.action = .fd ∨ e.action = .pipe) ∧ j = e.ends.2 ∨ e.action = .pipe ∧ j = e.ends.1
        · rw [if_pos c2]
          rcases (U2 j c2).2 with ⟨g, rfl, -⟩ | ⟨-, g, -⟩
          · exact absurd (me g) hmv
          · by_contra hc
            exact hc (by rw [← k02 j (fun x => hc x.symm), g])
        rw [if_neg c2]
        by_cases c1 : (o.action = .fd ∨ o.action = .pipe) ∧ j = o.ends.2 ∨ o.action = .pipe ∧ j = o.ends.1
        · rw [if_pos c1]
          rcases (U1 j c1).2 with ⟨g, rfl, -⟩ | ⟨-, g, -⟩
          · exact absurd (mo g) hmv
          · by_contra hc
            exact hc (by rw [← k0 j (fun x => hc x.symm), g])
        rw [if_neg c1]
        by_cases c0 : (i.action = .fd ∨ i.action = .pipe) ∧ j = i.ends.1 ∨ i.action = .pipe ∧ j = i.ends.2
        · rw [if_pos c0]
          rcases (U0 j c0).2 with ⟨g, rfl, -⟩ | ⟨-, g, -⟩
          · exact absurd (mi g) hmv
          · exact g.symm
        rw [if_neg c0]
        have x2 : t3.get j = t2.get j := by
          by_cases ha : c.stderr.action = .pipe
          · refine (p2 ha).2.2.2.2.2.2.2 j (fun x => c2 (.inr ⟨ae.trans ha, x⟩)) (fun x => c2 (.inl ⟨.inr (ae.trans ha), x⟩))
          · rw [(n2 ha).1]
        have x1 : t2.get j = t1.get j := by
          by_cases ha : c.stdout.action = .pipe
          · refine (p1 ha).2.2.2.2.2.2.2 j (fun x => c1 (.inr ⟨ao.trans ha, x⟩)) (fun x => c1 (.inl ⟨.inr (ao.trans ha), x⟩))
          · rw [(n1 ha).1]
        have x0 : t1.get j = t.get j := by
          by_cases ha : c.stdin.action = .pipe
          · refine (p0 ha).2.2.2.2.2.2.2 j (fun x => c0 (.inl ⟨.inr (ai.trans ha), x⟩)) (fun x => c0 (.inr ⟨ai.trans ha, x⟩))
          · rw [(n0 ha).1]
        rw [x2, x1, x0]
    by_cases hse : e.action = .stdout
    · -- stderr goes where stdout goes
      have g1 := I2.std_eq 1 (by omega) (by omega)
      have g1' := I2.std_open 1 (by omega) (by omega)
      have v1 : u2.table.get 1 = stdout t c := by rw [g1]; exact q1
      cases hx : u2.table.get 1 with
      | none => rw [g1] at hx; exact absurd hx g1'
      | some x =>
        have gp : ∀ j, (u2.table.put 2 (some x)).get j = if j = 2 then some x else u2.table.get j :=
          fun j => get_put (by omega)
        refine ⟨{ u2 with table := u2.table.put 2 (some x) }, by simp [childStderr, hse, dup2, hx],
          fun j => if j = 2 then some x else u2.table.get j, _, ⟨?_, ?_, ?_, ?_⟩, ?_, ?_, ?_, rest⟩
        · intro j _ _; exact gp j
        · intro j h0 hj
          show ite _ _ _ ≠ none
          split
          · simp
          · rw [I2.std_eq j h0 hj]; exact I2.std_open j h0 hj
        · intro j hj hd'
          show Table.get (Table.put _ _ _) j = _
          rw [gp, if_neg (by omega), I2.rest j hj hd']
          simp [hse]
        · rcases I2.dev with h | ⟨a, b, d⟩
          · exact .inl h
          · refine .inr ⟨a, ?_, ?_⟩
            · show Table.get (Table.put _ _ _) u2.devnull = _
              rw [gp, if_neg (by omega), b]
            · have hne : ¬ ((e.action = .fd ∨ e.action = .pipe) ∧ u2.devnull = e.ends.2 ∨ e.action = .pipe ∧ u2.devnull = e.ends.1) := by
                simp [hse]
              show ite _ _ _ = none
              rw [if_neg hne]; exact d
        · show u2.table.get 0 = _
          rw [I2.std_eq 0 (by omega) (by omega)]; exact q0
        · show u2.table.get 1 = _
          exact v1
        · show some x = _
          rw [ae] at hse
          unfold stderr; rw [hse]; rw [← v1, hx]
    · have he : childStderr u2 e = stage u2 e.action e.ends.2 e.ends.1 2 := by
        rw [← childOut_eq]; unfold childStderr
        cases h : e.action <;> first | rfl | exact absurd h hse
      rw [he]
      obtain ⟨u3, r3, I3⟩ := stage_spec (a := e.action) (src := e.ends.2) (other := e.ends.1) (target := 2) I2 (by omega)
        (fun h => ⟨(U2 _ (.inl ⟨h, rfl⟩)).1, by
          show ite _ _ _ ≠ none
          rw [if_neg (D12 _ (.inl ⟨h, rfl⟩)), if_neg (D02 _ (.inl ⟨h, rfl⟩))]; exact o3_2 _ (.inl ⟨h, rfl⟩)⟩)
        (fun h => ⟨(U2 _ (.inr ⟨h, rfl⟩)).1, by
          show ite _ _ _ ≠ none
          rw [if_neg (D12 _ (.inr ⟨h, rfl⟩)), if_neg (D02 _ (.inr ⟨h, rfl⟩))]; exact o3_2 _ (.inr ⟨h, rfl⟩),
          by rw [ae] at h; exact (p2 h).2.2.1.symm⟩)
      refine ⟨u3, r3, _, _, I3, q0, q1, ?_, rest⟩
      rw [if_pos rfl, if_neg (show ¬ (2 : Int) = 1 by decide), if_neg (show ¬ (2 : Int) = 0 by decide)]
      unfold stderr; rw [ae]
      cases ha : c.stderr.action with
      | fd =>
        have e' := (n2 (nfp ha)).2
        have z : (e.action = .fd ∨ e.action = .pipe) ∧ e.ends.2 = e.ends.2 ∨ e.action = .pipe ∧ e.ends.2 = e.ends.1 :=
          .inl ⟨.inl (ae.trans ha), rfl⟩
        simp only [became]
        rw [if_neg (D12 _ z), if_neg (D02 _ z), e', k03 _ (hm _ (me ha)).2]
      | pipe =>
        have := (p2 ha).2.2.2.2.2.2.1
        have z : (e.action = .fd ∨ e.action = .pipe) ∧ e.ends.2 = e.ends.2 ∨ e.action = .pipe ∧ e.ends.2 = e.ends.1 :=
          .inl ⟨.inr (ae.trans ha), rfl⟩
        simp only [became]
        rw [if_neg (D12 _ z), if_neg (D02 _ z), this]
      | devnull => rfl
      | stdout => rw [ae] at hse; exact absurd ha hse
      | unchanged => exact k03 _ hs.2.2
  obtain ⟨u3, r3, std, F, I3, v0, v1, v2, vr⟩ := st
  set tc := if u3.devnull = -1 then u3.table else u3.table.put u3.devnull none with htc
  have gc : ∀ j, 0 ≤ j → tc.get j = if j < 3 then std j else F j := by
    intro j h0
    rw [htc]
    by_cases hd' : u3.devnull = -1
    · rw [if_pos hd']
      split
      · rename_i h; exact I3.std_eq j h0 h
      · exact I3.rest j (by omega) (by omega)
    · rw [if_neg hd']
      rcases I3.dev with h | ⟨a, b, d⟩
      · exact absurd h hd'
      · rw [get_put (by omega)]
        split
        · rename_i h
          rw [if_neg (by omega), h, d]
        · split
          · rename_i h; exact I3.std_eq j h0 h
          · rename_i h1 h2; exact I3.rest j (by omega) h1
  have hf : (fork t c).2 = some (if c.closeFds || !c.passFds.isEmpty then closeFds tc c.passFds else tc) := by
    have hp : preFork t c = (t3, { c with stdin := i, stdout := o, stderr := e }) := by
      unfold preFork; rw [e0]; simp only; rw [e1]; simp only; rw [e2]
    unfold fork
    rw [hp]
    unfold postForkChild
    simp only
    rw [childStdin_eq, r1]
    simp only [Option.bind_eq_bind, Option.bind_some]
    rw [childOut_eq, r2]
    simp only [Option.bind_some]
    rw [r3]
    rfl
  refine ⟨_, hf, ?_, ?_, ?_, ?_⟩
  · split
    · rw [get_closeFds, if_neg (by omega), gc 0 (by omega), if_pos (by omega), v0]
    · rw [gc 0 (by omega), if_pos (by omega), v0]
  · split
    · rw [get_closeFds, if_neg (by omega), gc 1 (by omega), if_pos (by omega), v1]
    · rw [gc 1 (by omega), if_pos (by omega), v1]
  · split
    · rw [get_closeFds, if_neg (by omega), gc 2 (by omega), if_pos (by omega), v2]
    · rw [gc 2 (by omega), if_pos (by omega), v2]
  · intro j hj
    have hb : (c.closeFds || !c.passFds.isEmpty) = true ↔ (c.closeFds = true ∨ c.passFds ≠ []) := by
      simp
    by_cases hcl : (c.closeFds = true ∨ c.passFds ≠ [])
    · rw [if_pos (hb.2 hcl), get_closeFds, gc j (by omega), if_neg (by omega : ¬ j < 3), vr j hj]
      by_cases hp : j ∈ c.passFds <;> by_cases hmv : j ∈ moved c <;> simp [hp, hmv, hj, hcl]
    · rw [if_neg (fun x => hcl (hb.1 x)), gc j (by omega), if_neg (by omega : ¬ j < 3), vr j hj]
      by_cases hmv : j ∈ moved c <;> simp [hmv, hcl]

/-- A parent with a log file on descriptor 3 and a data file on 4. -/
def parent : Table := [some (.file 0), some (.file 1), some (.file 2), some (.file 3), some (.file 4)]
/-- Input from a pipe, output to the log, errors where the output goes, the data file passed. -/
def asked : Child := { ({} : Child).setStdinTo .pipe |>.setStdout 3 |>.setStderrTo .stdout with passFds := [4] }

example : StdOpen parent ∧ Distinct parent asked := by
  refine ⟨by unfold StdOpen; decide, ?_, by decide⟩
  have : moved asked = [3] := by decide
  rw [this]; simp only [List.mem_singleton]; rintro _ rfl; decide
example : (fork parent asked).2 =
    some [some (.pipeR 0), some (.file 3), some (.file 3), none, some (.file 4), none, none] := by decide

/-! ### The parent -/

theorem unset_step (c : Child) (s : Setter) (h : c.getStdin = -1 ∧ c.getStdout = -1 ∧ c.getStderr = -1) :
    (c.set s).getStdin = -1 ∧ (c.set s).getStdout = -1 ∧ (c.set s).getStderr = -1 := by
  obtain ⟨a, b, d⟩ := h
  cases s <;> exact ⟨by first | rfl | exact a, by first | rfl | exact b, by first | rfl | exact d⟩

/-- Whatever is asked for, before the child is started there are no pipes to it. -/
theorem C72_unset (l : List Setter) :
    (l.foldl Child.set {}).getStdin = -1 ∧ (l.foldl Child.set {}).getStdout = -1 ∧ (l.foldl Child.set {}).getStderr = -1 := by
  suffices h : ∀ (l : List Setter) (c : Child), c.getStdin = -1 ∧ c.getStdout = -1 ∧ c.getStderr = -1 →
      (l.foldl Child.set c).getStdin = -1 ∧ (l.foldl Child.set c).getStdout = -1 ∧ (l.foldl Child.set c).getStderr = -1 from
    h l {} ⟨rfl, rfl, rfl⟩
  intro l
  induction l with
  | nil => intro c h; exact h
  | cons s l ih => intro c h; exact ih _ (unset_step c s h)

example : ([Setter.stdinTo .pipe, .stdout 3].foldl Child.set {}).stdout.ends = (-1, 3) := by decide

/-- What the parent has: its own descriptors, and one end of each pipe. -/
structure Parent (t t' : Table) (c : Child) : Prop where
  stdin : c.getStdin = -1 ∨ c.stdin.action = .pipe ∧ 3 ≤ c.getStdin ∧ t.get c.getStdin = none ∧ t'.get c.getStdin = some (.pipeW 0)
  stdout : c.getStdout = -1 ∨ c.stdout.action = .pipe ∧ 3 ≤ c.getStdout ∧ t.get c.getStdout = none ∧
    t'.get c.getStdout = some (.pipeR 1)
  stderr : c.getStderr = -1 ∨ c.stderr.action = .pipe ∧ 3 ≤ c.getStderr ∧ t.get c.getStderr = none ∧
    t'.get c.getStderr = some (.pipeR 2)
  rest : ∀ j, j ≠ c.getStdin → j ≠ c.getStdout → j ≠ c.getStderr → t'.get j = t.get j

/-- One end of a pipe, just made, is closed again. -/
theorem postForkStream_spec {t : Table} {s : Stream} {first : Bool}
    (h : s.action = .pipe → t.get (if first then s.ends.1 else s.ends.2) ≠ none) :
    ∃ t' s', postForkStream t s first = some (t', s') ∧ s'.action = s.action ∧
      (s.action ≠ .pipe → t' = t ∧ s' = s) ∧
      (s.action = .pipe → (if first then s'.ends.2 = s.ends.2 else s'.ends.1 = s.ends.1) ∧
        ∀ j, t'.get j = if j = (if first then s.ends.1 else s.ends.2) then none else t.get j) := by
  by_cases ha : s.action = .pipe
  · obtain ⟨t', e, g⟩ := close_open (h ha)
    refine ⟨t', { s with ends := if first then (-1, s.ends.2) else (s.ends.1, -1) }, ?_, rfl, fun hc => absurd ha hc, fun _ => ⟨?_, g⟩⟩
    · unfold postForkStream; rw [ha]; simp [e]
    · cases first <;> rfl
  · refine ⟨t, s, ?_, rfl, fun _ => ⟨rfl, rfl⟩, fun hc => absurd hc ha⟩
    unfold postForkStream
    cases e : s.action <;> first | rfl | exact absurd e ha

/-- Once the child is started the parent has one end of each pipe asked for, given by `get_stdin()`, `get_stdout()` and
`get_stderr()`, and its own descriptors, as they were. -/
theorem C72_parent (t : Table) (l : List Setter) (hs : StdOpen t) :
    ∃ t' c', (fork t (l.foldl Child.set {})).1 = some (t', c') ∧ Parent t t' c' ∧
      ((l.foldl Child.set {}).stdin.action = .pipe ↔ c'.getStdin ≠ -1) ∧
      ((l.foldl Child.set {}).stdout.action = .pipe ↔ c'.getStdout ≠ -1) ∧
      ((l.foldl Child.set {}).stderr.action = .pipe ↔ c'.getStderr ≠ -1) := by
  obtain ⟨ui, uo, ue⟩ := C72_unset l
  generalize l.foldl Child.set {} = c at ui uo ue ⊢
  obtain ⟨t1, i, e0, ai, s1, n0, p0⟩ := preForkStream_spec (n := 0) (s := c.stdin) hs
  obtain ⟨t2, o, e1, ao, s2, n1, p1⟩ := preForkStream_spec (n := 1) (s := c.stdout) s1
  obtain ⟨t3, e, e2, ae, s3, n2, p2⟩ := preForkStream_spec (n := 2) (s := c.stderr) s2
  have k0 : ∀ j, t.get j ≠ none → t1.get j = t.get j := fun j h => by
    have := preForkStream_keep (n := 0) (s := c.stdin) hs h; rwa [e0] at this
  have k1 : ∀ j, t1.get j ≠ none → t2.get j = t1.get j := fun j h => by
    have := preForkStream_keep (n := 1) (s := c.stdout) s1 h; rwa [e1] at this
  have k2 : ∀ j, t2.get j ≠ none → t3.get j = t2.get j := fun j h => by
    have := preForkStream_keep (n := 2) (s := c.stderr) s2 h; rwa [e2] at this
  have hp : preFork t c = (t3, { c with stdin := i, stdout := o, stderr := e }) := by
    unfold preFork; rw [e0]; simp only; rw [e1]; simp only; rw [e2]
  have k13 : ∀ j, t1.get j ≠ none → t3.get j = t1.get j := fun j h => by
    rw [k2 j (by rw [k1 j h]; exact h), k1 j h]
  have z0 : ∀ j, t1.get j = none → t.get j = none := fun j h => by
    by_contra hc; rw [k0 j hc] at h; exact hc h
  have z1 : ∀ j, t2.get j = none → t1.get j = none := fun j h => by
    by_contra hc; rw [k1 j hc] at h; exact hc h
  -- the ends, when there are pipes
  have P0 := fun h : c.stdin.action = .pipe => p0 h
  have P1 := fun h : c.stdout.action = .pipe => p1 h
  have P2 := fun h : c.stderr.action = .pipe => p2 h
  obtain ⟨v1, i', f0, ai', m0, q0⟩ := postForkStream_spec (t := t3) (s := i) (first := true) (by
    intro h; rw [ai] at h
    have := (P0 h).2.2.2.2.2.1
    show t3.get i.ends.1 ≠ none
    rw [k13 _ (by rw [this]; simp), this]; simp)
  have w0 : ∀ j, (i.action = .pipe → j ≠ i.ends.1) → v1.get j = t3.get j := fun j h => by
    by_cases ha : i.action = .pipe
    · rw [(q0 ha).2 j]; exact if_neg (h ha)
    · rw [(m0 ha).1]
  have x1 : o.action = .pipe → v1.get o.ends.2 = some (.pipeW 1) := fun h => by
    rw [ao] at h
    have g := (P1 h).2.2.2.2.2.2.1
    have b := (P1 h).2.2.2.2.1
    have g3 : t3.get o.ends.2 = some (.pipeW 1) := by rw [k2 _ (by rw [g]; simp), g]
    rw [w0, g3]
    intro hi hc
    rw [ai] at hi
    rw [hc, (P0 hi).2.2.2.2.2.1] at b; cases b
  obtain ⟨v2, o', f1, ao', m1, q1⟩ := postForkStream_spec (t := v1) (s := o) (first := false) (by
    intro h
    show v1.get o.ends.2 ≠ none
    rw [x1 h]; simp)
  have w1 : ∀ j, (o.action = .pipe → j ≠ o.ends.2) → v2.get j = v1.get j := fun j h => by
    by_cases ha : o.action = .pipe
    · rw [(q1 ha).2 j]; exact if_neg (h ha)
    · rw [(m1 ha).1]
  have x2 : e.action = .pipe → v2.get e.ends.2 = some (.pipeW 2) := fun h => by
    rw [ae] at h
    have g := (P2 h).2.2.2.2.2.2.1
    have b := (P2 h).2.2.2.2.1
    rw [w1, w0, g]
    · intro hi hc
      rw [ai] at hi
      have := z1 _ b
      rw [hc, (P0 hi).2.2.2.2.2.1] at this; cases this
    · intro ho hc
      rw [ao] at ho
      rw [hc, (P1 ho).2.2.2.2.2.2.1] at b; cases b
  obtain ⟨v3, e', f2, ae', m2, q2⟩ := postForkStream_spec (t := v2) (s := e) (first := false) (by
    intro h
    show v2.get e.ends.2 ≠ none
    rw [x2 h]; simp)
  have w2 : ∀ j, (e.action = .pipe → j ≠ e.ends.2) → v3.get j = v2.get j := fun j h => by
    by_cases ha : e.action = .pipe
    · rw [(q2 ha).2 j]; exact if_neg (h ha)
    · rw [(m2 ha).1]
  -- an end of the parent is not an end of the child
  have w : ∀ j, (i.action = .pipe → j ≠ i.ends.1) → (o.action = .pipe → j ≠ o.ends.2) → (e.action = .pipe → j ≠ e.ends.2) →
      v3.get j = t3.get j := fun j a b d => by rw [w2 j d, w1 j b, w0 j a]
  have ri : ∀ {j x}, t3.get j = some x → x ≠ .pipeR 0 → i.action = .pipe → j ≠ i.ends.1 := by
    rintro j x h hx hi rfl
    rw [ai] at hi
    have := (P0 hi).2.2.2.2.2.1
    rw [k13 _ (by rw [this]; simp), this] at h
    cases h; exact hx rfl
  have ro : ∀ {j x}, t3.get j = some x → x ≠ .pipeW 1 → o.action = .pipe → j ≠ o.ends.2 := by
    rintro j x h hx hi rfl
    rw [ao] at hi
    have := (P1 hi).2.2.2.2.2.2.1
    rw [k2 _ (by rw [this]; simp), this] at h
    cases h; exact hx rfl
  have re : ∀ {j x}, t3.get j = some x → x ≠ .pipeW 2 → e.action = .pipe → j ≠ e.ends.2 := by
    rintro j x h hx hi rfl
    rw [ae] at hi
    rw [(P2 hi).2.2.2.2.2.2.1] at h
    cases h; exact hx rfl
  have gi : c.stdin.action = .pipe → i'.ends.2 = i.ends.2 := fun h => (q0 (ai.trans h)).1
  have go : c.stdout.action = .pipe → o'.ends.1 = o.ends.1 := fun h => (q1 (ao.trans h)).1
  have ge : c.stderr.action = .pipe → e'.ends.1 = e.ends.1 := fun h => (q2 (ae.trans h)).1
  have hi : c.stdin.action = .pipe → 3 ≤ i'.ends.2 ∧ t.get i'.ends.2 = none ∧ v3.get i'.ends.2 = some (.pipeW 0) := fun h => by
    rw [gi h]
    obtain ⟨-, a, -, -, b, -, d, -⟩ := P0 h
    have d3 : t3.get i.ends.2 = some (.pipeW 0) := by rw [k13 _ (by rw [d]; simp), d]
    exact ⟨a, b, by rw [w _ (ri d3 (by simp)) (ro d3 (by simp)) (re d3 (by simp)), d3]⟩
  have ho : c.stdout.action = .pipe → 3 ≤ o'.ends.1 ∧ t.get o'.ends.1 = none ∧ v3.get o'.ends.1 = some (.pipeR 1) := fun h => by
    rw [go h]
    obtain ⟨a, -, -, b, -, d, -⟩ := P1 h
    have d3 : t3.get o.ends.1 = some (.pipeR 1) := by rw [k2 _ (by rw [d]; simp), d]
    exact ⟨a, z0 _ b, by rw [w _ (ri d3 (by simp)) (ro d3 (by simp)) (re d3 (by simp)), d3]⟩
  have he : c.stderr.action = .pipe → 3 ≤ e'.ends.1 ∧ t.get e'.ends.1 = none ∧ v3.get e'.ends.1 = some (.pipeR 2) := fun h => by
    rw [ge h]
    obtain ⟨a, -, -, b, -, d3, -⟩ := P2 h
    exact ⟨a, z0 _ (z1 _ b), by rw [w _ (ri d3 (by simp)) (ro d3 (by simp)) (re d3 (by simp)), d3]⟩
  have ni : c.stdin.action ≠ .pipe → i'.ends.2 = -1 := fun h => by
    rw [(m0 (by rw [ai]; exact h)).2, (n0 h).2]; exact ui
  have no : c.stdout.action ≠ .pipe → o'.ends.1 = -1 := fun h => by
    rw [(m1 (by rw [ao]; exact h)).2, (n1 h).2]; exact uo
  have ne : c.stderr.action ≠ .pipe → e'.ends.1 = -1 := fun h => by
    rw [(m2 (by rw [ae]; exact h)).2, (n2 h).2]; exact ue
  refine ⟨v3, { c with stdin := i', stdout := o', stderr := e' }, ?_, ⟨?_, ?_, ?_, ?_⟩, ?_, ?_, ?_⟩
  · unfold fork
    rw [hp]
    unfold postForkParent
    simp only
    rw [f0]
    simp only [Option.bind_eq_bind, Option.bind_some]
    rw [f1]
    simp only [Option.bind_some]
    rw [f2]
    rfl
  · by_cases h : c.stdin.action = .pipe
    · exact .inr ⟨ai'.trans (ai.trans h), hi h⟩
    · exact .inl (ni h)
  · by_cases h : c.stdout.action = .pipe
    · exact .inr ⟨ao'.trans (ao.trans h), ho h⟩
    · exact .inl (no h)
  · by_cases h : c.stderr.action = .pipe
    · exact .inr ⟨ae'.trans (ae.trans h), he h⟩
    · exact .inl (ne h)
  · intro j ji jo je
    change j ≠ i'.ends.2 at ji
    change j ≠ o'.ends.1 at jo
    change j ≠ e'.ends.1 at je
    -- after the pipes of stdin
    have y0 : c.stdin.action = .pipe → j = i.ends.1 → t.get j = none := fun h x => by rw [x]; exact (P0 h).2.2.2.1
    have y1 : c.stdout.action = .pipe → j = o.ends.2 → t.get j = none := fun h x => by
      rw [x]; exact z0 _ (P1 h).2.2.2.2.1
    have y2 : c.stderr.action = .pipe → j = e.ends.2 → t.get j = none := fun h x => by
      rw [x]; exact z0 _ (z1 _ (P2 h).2.2.2.2.1)
    by_cases b2 : c.stderr.action = .pipe ∧ j = e.ends.2
    · rw [(q2 (ae.trans b2.1)).2 j, y2 b2.1 b2.2]
      exact if_pos b2.2
    rw [w2 j (fun h x => b2 ⟨ae ▸ h, x⟩)]
    by_cases b1 : c.stdout.action = .pipe ∧ j = o.ends.2
    · rw [(q1 (ao.trans b1.1)).2 j, y1 b1.1 b1.2]
      exact if_pos b1.2
    rw [w1 j (fun h x => b1 ⟨ao ▸ h, x⟩)]
    by_cases b0 : c.stdin.action = .pipe ∧ j = i.ends.1
    · rw [(q0 (ai.trans b0.1)).2 j, y0 b0.1 b0.2]
      exact if_pos b0.2
    rw [w0 j (fun h x => b0 ⟨ai ▸ h, x⟩)]
    have r2 : t3.get j = t2.get j := by
      by_cases h : c.stderr.action = .pipe
      · exact (P2 h).2.2.2.2.2.2.2 j (fun x => je (by rw [ge h]; exact x)) (fun x => b2 ⟨h, x⟩)
      · rw [(n2 h).1]
    have r1 : t2.get j = t1.get j := by
      by_cases h : c.stdout.action = .pipe
      · exact (P1 h).2.2.2.2.2.2.2 j (fun x => jo (by rw [go h]; exact x)) (fun x => b1 ⟨h, x⟩)
      · rw [(n1 h).1]
    have r0 : t1.get j = t.get j := by
      by_cases h : c.stdin.action = .pipe
      · exact (P0 h).2.2.2.2.2.2.2 j (fun x => b0 ⟨h, x⟩) (fun x => ji (by rw [gi h]; exact x))
      · rw [(n0 h).1]
    rw [r2, r1, r0]
  · refine ⟨fun h => ?_, fun h => ?_⟩
    · have := (hi h).1; show i'.ends.2 ≠ -1; omega
    · by_contra hc; exact h (ni hc)
  · refine ⟨fun h => ?_, fun h => ?_⟩
    · have := (ho h).1; show o'.ends.1 ≠ -1; omega
    · by_contra hc; exact h (no hc)
  · refine ⟨fun h => ?_, fun h => ?_⟩
    · have := (he h).1; show e'.ends.1 ≠ -1; omega
    · by_contra hc; exact h (ne hc)

example : ∃ c, (fork parent asked).1 =
    some ([some (.file 0), some (.file 1), some (.file 2), some (.file 3), some (.file 4), none, some (.pipeW 0)], c) ∧
      c.getStdin = 6 ∧ c.getStdout = -1 := ⟨_, rfl, by decide, by decide⟩

theorem closeIgnored_unset (t : Table) : closeIgnored t (-1) = t := rfl

theorem closeIgnored_get {t : Table} {fd : Int} (h : t.get fd ≠ none) (j : Int) :
    (closeIgnored t fd).get j = if j = fd then none else t.get j := by
  obtain ⟨t', e, g⟩ := close_open h
  unfold closeIgnored
  rw [e]; exact g j

theorem parent_call {t t' : Table} {c : Child} (h : Parent t t' c) (k : Call) : Parent t (call (t', c) k).1 (call (t', c) k).2 := by
  obtain ⟨hi, ho, he, hr⟩ := h
  have neg : ∀ (u : Table), u.get (-1) = none := fun u => rfl
  -- the ends are different from each other, they are ends of different pipes
  have dio : c.getStdin ≠ -1 → c.getStdin ≠ c.getStdout := fun h x => by
    rcases hi with y | ⟨-, -, -, y⟩
    · exact h y
    · rcases ho with z | ⟨-, -, -, z⟩
      · exact h (x.trans z)
      · rw [x, z] at y; cases y
  have die : c.getStdin ≠ -1 → c.getStdin ≠ c.getStderr := fun h x => by
    rcases hi with y | ⟨-, -, -, y⟩
    · exact h y
    · rcases he with z | ⟨-, -, -, z⟩
      · exact h (x.trans z)
      · rw [x, z] at y; cases y
  have doe : c.getStdout ≠ -1 → c.getStdout ≠ c.getStderr := fun h x => by
    rcases ho with y | ⟨-, -, -, y⟩
    · exact h y
    · rcases he with z | ⟨-, -, -, z⟩
      · exact h (x.trans z)
      · rw [x, z] at y; cases y
  cases k with
  | closeStdin =>
    show Parent t (closeIgnored t' c.getStdin) { c with stdin := { c.stdin with ends := (c.stdin.ends.1, -1) } }
    by_cases hc : c.getStdin = -1
    · rw [hc, closeIgnored_unset]
      exact ⟨.inl rfl, ho, he, fun j a b d => hr j (by rw [hc]; exact a) b d⟩
    · obtain ⟨a, b, d, f⟩ := hi.resolve_left hc
      have g := closeIgnored_get (t := t') (fd := c.getStdin) (by rw [f]; simp)
      refine ⟨.inl rfl, ?_, ?_, ?_⟩
      · refine ho.imp_right fun ⟨p, q, r, s⟩ => ⟨p, q, r, ?_⟩
        show (closeIgnored t' c.getStdin).get c.getStdout = _
        rw [g, if_neg (fun x => dio hc x.symm), s]
      · refine he.imp_right fun ⟨p, q, r, s⟩ => ⟨p, q, r, ?_⟩
        show (closeIgnored t' c.getStdin).get c.getStderr = _
        rw [g, if_neg (fun x => die hc x.symm), s]
      · intro j _ h2 h3
        rw [g]
        split
        · rename_i x; rw [x, d]
        · rename_i x; exact hr j x h2 h3
  | closeStdout =>
    show Parent t (closeIgnored t' c.getStdout) { c with stdout := { c.stdout with ends := (-1, c.stdout.ends.2) } }
    by_cases hc : c.getStdout = -1
    · rw [hc, closeIgnored_unset]
      exact ⟨hi, .inl rfl, he, fun j a b d => hr j a (by rw [hc]; exact b) d⟩
    · obtain ⟨a, b, d, f⟩ := ho.resolve_left hc
      have g := closeIgnored_get (t := t') (fd := c.getStdout) (by rw [f]; simp)
      refine ⟨?_, .inl rfl, ?_, ?_⟩
      · by_cases hx : c.getStdin = -1
        · exact .inl hx
        · refine .inr ?_
          obtain ⟨p, q, r, s⟩ := hi.resolve_left hx
          refine ⟨p, q, r, ?_⟩
          show (closeIgnored t' c.getStdout).get c.getStdin = _
          rw [g, if_neg (fun x => dio hx x), s]
      · refine he.imp_right fun ⟨p, q, r, s⟩ => ⟨p, q, r, ?_⟩
        show (closeIgnored t' c.getStdout).get c.getStderr = _
        rw [g, if_neg (fun x => doe hc x.symm), s]
      · intro j h1 _ h3
        rw [g]
        split
        · rename_i x; rw [x, d]
        · rename_i x; exact hr j h1 x h3
  | closeStderr =>
    show Parent t (closeIgnored t' c.getStderr) { c with stderr := { c.stderr with ends := (-1, c.stderr.ends.2) } }
    by_cases hc : c.getStderr = -1
    · rw [hc, closeIgnored_unset]
      exact ⟨hi, ho, .inl rfl, fun j a b d => hr j a b (by rw [hc]; exact d)⟩
    · obtain ⟨a, b, d, f⟩ := he.resolve_left hc
      have g := closeIgnored_get (t := t') (fd := c.getStderr) (by rw [f]; simp)
      refine ⟨?_, ?_, .inl rfl, ?_⟩
      · by_cases hx : c.getStdin = -1
        · exact .inl hx
        · refine .inr ?_
          obtain ⟨p, q, r, s⟩ := hi.resolve_left hx
          refine ⟨p, q, r, ?_⟩
          show (closeIgnored t' c.getStderr).get c.getStdin = _
          rw [g, if_neg (fun x => die hx x), s]
      · by_cases hx : c.getStdout = -1
        · exact .inl hx
        · refine .inr ?_
          obtain ⟨p, q, r, s⟩ := ho.resolve_left hx
          refine ⟨p, q, r, ?_⟩
          show (closeIgnored t' c.getStderr).get c.getStdout = _
          rw [g, if_neg (fun x => doe hx x), s]
      · intro j h1 h2 _
        rw [g]
        split
        · rename_i x; rw [x, d]
        · rename_i x; exact hr j h1 h2 x

theorem dtor_calls {t t' : Table} {c : Child} (h : Parent t t' c) :
    dtor t' c = (call (call (call (t', c) .closeStdin) .closeStdout) .closeStderr).1 := by
  obtain ⟨hi, ho, he, -⟩ := h
  have one : ∀ (u : Table) (a : Action) (fd : Int), (fd = -1 ∨ a = .pipe) → dtorStream u a fd = closeIgnored u fd := by
    rintro u a fd (rfl | rfl)
    · rw [closeIgnored_unset]; unfold dtorStream; cases a <;> rfl
    · unfold dtorStream
      by_cases h : fd = -1
      · simp only [h, ne_eq, not_true_eq_false, if_false]; rfl
      · simp only [ne_eq, h, not_false_eq_true, if_true]
  show dtorStream (dtorStream (dtorStream t' _ c.getStdin) _ c.getStdout) _ c.getStderr =
    closeIgnored (closeIgnored (closeIgnored t' c.getStdin) c.getStdout) c.getStderr
  rw [one _ _ _ (hi.imp_right And.left), one _ _ _ (ho.imp_right And.left), one _ _ _ (he.imp_right And.left)]

/-- Whatever ends of the pipes are closed, in whatever order and however many times, nothing else is closed by that; and once the
object is destroyed the descriptors of the parent are those that it had. -/
theorem C72_restored (t : Table) (l : List Setter) (calls : List Call) (hs : StdOpen t) :
    ∃ s, (fork t (l.foldl Child.set {})).1 = some s ∧ Parent t (calls.foldl call s).1 (calls.foldl call s).2 ∧
      ∀ j, (dtor (calls.foldl call s).1 (calls.foldl call s).2).get j = t.get j := by
  obtain ⟨t', c', e, h, -⟩ := C72_parent t l hs
  refine ⟨(t', c'), e, ?_⟩
  have hp : ∀ (calls : List Call) (s : Table × Child), Parent t s.1 s.2 → Parent t (calls.foldl call s).1 (calls.foldl call s).2 := by
    intro calls
    induction calls with
    | nil => intro s h; exact h
    | cons k calls ih => intro s h; exact ih _ (parent_call h k)
  have hq := hp calls (t', c') h
  refine ⟨hq, fun j => ?_⟩
  rw [dtor_calls hq]
  have h3 := parent_call (parent_call (parent_call hq .closeStdin) .closeStdout) .closeStderr
  by_cases hj : j = -1
  · subst hj; rfl
  · exact h3.rest j hj hj hj

example : ∃ s, (fork parent asked).1 = some s ∧ dtor s.1 s.2 = parent ++ [none, none] := ⟨_, rfl, by decide⟩

/-- No end of a pipe that belongs to the parent is left in the child: when the parent closes `get_stdin()` the child reads an end of
file, and a child that writes when the parent has closed `get_stdout()` is told so. -/
theorem C72_pipe_ends (t : Table) (c : Child) (hs : StdOpen t) (hd : Distinct t c)
    (fresh : ∀ j n, t.get j ≠ some (.pipeR n) ∧ t.get j ≠ some (.pipeW n)) (t' : Table) (h : (fork t c).2 = some t') (j : Int) :
    t'.get j ≠ some (.pipeW 0) ∧ t'.get j ≠ some (.pipeR 1) ∧ t'.get j ≠ some (.pipeR 2) := by
  obtain ⟨u, e, h0, h1, h2, hr⟩ := C72_child_partial t c hs hd
  rw [h] at e
  cases e
  have so : ∀ n, stdout t c ≠ some (.pipeR n) ∧ stdout t c ≠ some (.pipeW 0) := by
    intro n
    unfold stdout
    cases c.stdout.action <;> simp [fresh]
  by_cases hj : j < 0
  · rw [get_neg hj]; simp
  by_cases h3 : 3 ≤ j
  · rw [hr j h3]
    split
    · simp
    · simp [fresh]
  · have : j = 0 ∨ j = 1 ∨ j = 2 := by omega
    rcases this with rfl | rfl | rfl
    · rw [h0]; unfold stdin
      cases c.stdin.action <;> simp [fresh]
    · rw [h1]; exact ⟨(so 0).2, (so 1).1, (so 2).1⟩
    · rw [h2]; unfold stderr
      cases c.stderr.action <;> simp only
      · simp
      · simp
      · exact ⟨(so 0).2, (so 1).1, (so 2).1⟩
      · simp [fresh]
      · simp [fresh]

/-! ### Where it goes wrong -/

theorem redirect_closes {t t' : Table} {a b : Int} (h : redirect t a b = some t') : t'.get a = none := by
  unfold redirect at h
  cases e : dup2 t a b with
  | none => rw [e] at h; cases h
  | some u =>
    rw [e] at h
    change close u a = some t' at h
    unfold close at h
    cases g : u.get a with
    | none => rw [g] at h; cases h
    | some x =>
      rw [g] at h
      cases h
      rw [get_put (nonneg_of_open (by rw [g]; simp)), if_pos rfl]

/-- Standard output and standard error cannot be sent to the same file descriptor: it is closed when the first is redirected, and the
child exits without calling `main`. -/
theorem C72_violated_same_fd (t : Table) (c : Child) (fd : Int) (ho : c.stdout = ⟨(-1, fd), .fd⟩) (he : c.stderr = ⟨(-1, fd), .fd⟩) :
    (fork t c).2 = none := by
  have h1 : (preFork t c).2.stdout = ⟨(-1, fd), .fd⟩ := by simp [preFork, preForkStream, ho]
  have h2 : (preFork t c).2.stderr = ⟨(-1, fd), .fd⟩ := by simp [preFork, preForkStream, he]
  show postForkChild (preFork t c).1 (preFork t c).2 = none
  generalize (preFork t c).1 = u, (preFork t c).2 = d at h1 h2
  unfold postForkChild
  cases e0 : childStdin ⟨u, -1⟩ d.stdin with
  | none => rfl
  | some s =>
    simp only [Option.bind_eq_bind, Option.bind_some]
    rw [h1]
    cases e1 : redirect s.table fd 1 with
    | none => simp [childOut, e1]
    | some v =>
      have := redirect_closes e1
      have e2 : redirect v fd 2 = none := by simp [redirect, dup2, this]
      simp [childOut, childStderr, h2, e1, e2]

example : (fork parent (({} : Child).setStdout 3 |>.setStderr 3)).2 = none := by decide

/-- A stream redirected to the descriptor that it already has is closed. -/
theorem C72_violated_same_stream (t : Table) (h : StdOpen t) :
    ∃ t', (fork t (({} : Child).setStdout 1)).2 = some t' ∧ t'.get 1 = none := by
  have hs : ∃ x, t.get 1 = some x := Option.ne_none_iff_exists'.1 h.2.1
  obtain ⟨x, hx⟩ := hs
  have g : (t.put 1 (some x)).get 1 = some x := by rw [get_put (by omega), if_pos rfl]
  refine ⟨closeFds ((t.put 1 (some x)).put 1 none) [], ?_, ?_⟩
  · show postForkChild t (({} : Child).setStdout 1) = _
    simp [postForkChild, childStdin, childOut, childStderr, Child.setStdout, redirect, dup2, close, hx, g]
  · rw [get_closeFds, if_neg (by omega), get_put (by omega), if_pos rfl]

/-- Standard error sent to descriptor 1 closes standard output. -/
theorem C72_violated_stderr_to_1 (t : Table) (h : StdOpen t) :
    ∃ t', (fork t (({} : Child).setStderr 1)).2 = some t' ∧ t'.get 1 = none ∧ t'.get 2 = t.get 1 := by
  obtain ⟨x, hx⟩ := Option.ne_none_iff_exists'.1 h.2.1
  have g : (t.put 2 (some x)).get 1 = some x := by rw [get_put (by omega), if_neg (by omega), hx]
  refine ⟨closeFds ((t.put 2 (some x)).put 1 none) [], ?_, ?_, ?_⟩
  · show postForkChild t (({} : Child).setStderr 1) = _
    simp [postForkChild, childStdin, childOut, childStderr, Child.setStderr, redirect, dup2, close, hx, g]
  · rw [get_closeFds, if_neg (by omega), get_put (by omega), if_pos rfl]
  · rw [get_closeFds, if_neg (by omega), get_put (by omega), if_neg (by omega), get_put (by omega), if_pos rfl, hx]

/-- If standard input is closed in the parent, and a pipe to the child is asked for, standard input is closed in the child too. -/
theorem C72_violated_closed_stdin :
    (fork [none, some (.file 1), some (.file 2)] (({} : Child).setStdinTo .pipe)).2 =
      some [none, some (.file 1), some (.file 2), none] := by decide

/-- If the process cannot be made the ends of the pipes meant for it are never closed in the parent. -/
theorem C72_violated_leak (t : Table) (h : StdOpen t) :
    ∃ j, t.get j = none ∧ (dtor (forkFails t (({} : Child).setStdinTo .pipe)).1 (forkFails t (({} : Child).setStdinTo .pipe)).2).get j =
      some (.pipeR 0) := by
  obtain ⟨t1, i, e0, ai, s1, -, p0⟩ := preForkStream_spec (n := 0) (s := (({} : Child).setStdinTo .pipe).stdin) h
  obtain ⟨-, hw, hn, b, -, r, w, -⟩ := p0 rfl
  refine ⟨i.ends.1, b, ?_⟩
  have hp : forkFails t (({} : Child).setStdinTo .pipe) = (t1, { ({} : Child) with stdin := i }) := by
    unfold forkFails preFork; rw [e0]; rfl
  rw [hp]
  show (dtorStream t1 i.action i.ends.2).get i.ends.1 = _
  rw [ai]
  show (if i.ends.2 ≠ -1 then closeIgnored t1 i.ends.2 else t1).get i.ends.1 = _
  rw [if_pos (by omega), closeIgnored_get (by rw [w]; simp), if_neg hn, r]

end Msat.Props
