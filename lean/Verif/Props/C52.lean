import Verif.Lemmas.Owners

namespace Msat.Props
open Owners OwnersSpec Sys

/-! ## Mappings -/

/-- The invariant for mappings. -/
structure MInv (s : Maps) (full : Prop) : Prop where
  own : Own s.objs (fun m => m ∈ s.made ∧ m ∉ s.released) full
  nodup : s.released.Nodup
  rel : ∀ m ∈ s.released, m ∈ s.made

theorem not_holds_of {objs : Nat → Option (Option Nat)} {o : Nat} (h : objs o = none ∨ objs o = some none) :
    ∀ x, ¬ Holds objs o x := by
  intro x q
  unfold Holds at q
  rcases h with h | h <;> rw [h] at q <;> simp at q

theorem munmap_inv {s : Maps} {full : Prop} (h : MInv s full) (o : Nat) (ok : Bool) :
    MInv (mmapMunmap s o ok).1 full ∧
    ((mmapMunmap s o ok).2 = false → s.objs o ≠ none → (mmapMunmap s o ok).1.objs o = some none) ∧
    (∀ x, x ≠ o → (mmapMunmap s o ok).1.objs x = s.objs x) := by
  unfold mmapMunmap
  cases ho : s.objs o with
  | none => exact ⟨h, fun _ q => absurd rfl q, fun _ _ => rfl⟩
  | some addr =>
    cases addr with
    | none => exact ⟨h, fun q => by simp [sysMunmap] at q, fun _ _ => rfl⟩
    | some m =>
      cases ok with
      | false => exact ⟨h, fun q => by simp [sysMunmap] at q, fun _ _ => rfl⟩
      | true =>
        simp only [sysMunmap, if_true]
        obtain ⟨hm1, hm2⟩ := h.own.sound o m ho
        refine ⟨⟨?_, ?_, ?_⟩, fun _ _ => by simp, fun x hx => upd_ne _ _ hx⟩
        · refine (h.own.release ho (v := some none) (by simp)).congr ?_
          intro r
          simp only [List.mem_append, List.mem_singleton]
          constructor
          · rintro ⟨⟨a, b⟩, c⟩; exact ⟨a, fun q => q.elim b c⟩
          · rintro ⟨a, b⟩; exact ⟨⟨a, fun q => b (Or.inl q)⟩, fun q => b (Or.inr q)⟩
        · rw [List.nodup_append]
          refine ⟨h.nodup, by simp, ?_⟩
          intro a ha b hb
          rw [List.mem_singleton.1 hb]; rintro rfl; exact hm2 ha
        · intro x hx
          rcases List.mem_append.1 hx with hx | hx
          · exact h.rel x hx
          · rw [List.mem_singleton.1 hx]; exact hm1

theorem mstep_inv {s : Maps} {full : Prop} (h : MInv s full) (op : MOp) (hf : full → MOp.Released op) :
    MInv (mstep s op).1 full := by
  cases op with
  | make o m =>
    unfold mstep
    by_cases hc : s.objs o = none ∧ m ∉ s.made
    · simp only [if_pos hc]
      refine ⟨?_, h.nodup, fun x hx => List.mem_cons_of_mem _ (h.rel x hx)⟩
      refine (h.own.make (not_holds_of (Or.inl hc.1)) (fun q => hc.2 q.1)).congr ?_
      intro r
      simp only [List.mem_cons]
      constructor
      · rintro (⟨a, b⟩ | rfl)
        · exact ⟨Or.inr a, b⟩
        · exact ⟨Or.inl rfl, fun q => hc.2 (h.rel _ q)⟩
      · rintro ⟨rfl | a, b⟩
        · exact Or.inr rfl
        · exact Or.inl ⟨a, b⟩
    · simp only [if_neg hc]; exact h
  | move o src =>
    unfold mstep
    dsimp only
    cases ho : s.objs o with
    | some _ => exact h
    | none =>
      cases hs : s.objs src with
      | none => exact h
      | some addr =>
        refine ⟨h.own.transfer (fun e => ?_) (not_holds_of (Or.inl ho)) hs, h.nodup, h.rel⟩
        rw [e, hs] at ho; cases ho
  | assign dst src ok =>
    unfold mstep
    dsimp only
    cases ho : s.objs dst with
    | none => exact h
    | some a =>
      cases hs : s.objs src with
      | none => exact h
      | some addr =>
        dsimp only
        by_cases hc : dst = src
        · rw [if_pos hc]; exact h
        · rw [if_neg hc]
          obtain ⟨i1, i2, i3⟩ := munmap_inv h dst ok
          cases hm : mmapMunmap s dst ok with
          | mk s' t =>
            rw [hm] at i1 i2 i3
            cases t with
            | true => exact i1
            | false =>
              refine ⟨i1.own.transfer hc (not_holds_of (Or.inr (i2 rfl (by rw [ho]; simp)))) ?_, i1.nodup, i1.rel⟩
              exact (i3 src (Ne.symm hc)).trans hs
  | munmap o ok => exact (munmap_inv h o ok).1
  | destroy o ok =>
    unfold mstep
    dsimp only
    cases ho : s.objs o with
    | none => exact h
    | some addr =>
      cases addr with
      | none => exact ⟨h.own.drop (not_holds_of (Or.inr ho)) (by simp), h.nodup, h.rel⟩
      | some m =>
        cases ok with
        | false =>
          refine ⟨h.own.leak ho (by simp) (fun q => ?_), h.nodup, h.rel⟩
          exact absurd (hf q) (by simp [MOp.Released])
        | true =>
          obtain ⟨hm1, hm2⟩ := h.own.sound o m ho
          simp only [sysMunmap, if_true, Option.getD_some]
          refine ⟨?_, ?_, ?_⟩
          · refine (h.own.release ho (v := none) (by simp)).congr ?_
            intro r
            simp only [List.mem_append, List.mem_singleton]
            constructor
            · rintro ⟨⟨a, b⟩, c⟩; exact ⟨a, fun q => q.elim b c⟩
            · rintro ⟨a, b⟩; exact ⟨⟨a, fun q => b (Or.inl q)⟩, fun q => b (Or.inr q)⟩
          · rw [List.nodup_append]
            refine ⟨h.nodup, by simp, ?_⟩
            intro a ha b hb
            rw [List.mem_singleton.1 hb]; rintro rfl; exact hm2 ha
          · intro x hx
            rcases List.mem_append.1 hx with hx | hx
            · exact h.rel x hx
            · rw [List.mem_singleton.1 hx]; exact hm1

theorem afterM_inv (ops : List MOp) : MInv (afterM ops) (∀ op ∈ ops, MOp.Released op) := by
  have key : ∀ (ops : List MOp) (s : Maps) (full : Prop), (full → ∀ op ∈ ops, MOp.Released op) → MInv s full →
      MInv (ops.foldl (fun s op => (mstep s op).1) s) full := by
    intro ops
    induction ops with
    | nil => intro s full _ h; exact h
    | cons op ops ih =>
      intro s full hf h
      exact ih _ full (fun q x hx => hf q x (List.mem_cons_of_mem _ hx))
        (mstep_inv h op (fun q => hf q op List.mem_cons_self))
  refine key ops noMaps _ id ⟨⟨?_, ?_, ?_⟩, List.nodup_nil, by simp [noMaps]⟩
  · intro o r q; simp [Holds, noMaps] at q
  · intro o o' r q; simp [Holds, noMaps] at q
  · intro _ r q; simp [noMaps] at q

/-- After every sequence of operations, whatever the kernel answers, no mapping has been released twice, and what
an object has is a mapping that has not been released, and that no other object has. -/
theorem C52_mappings (ops : List MOp) :
    (afterM ops).released.Nodup ∧
    ∀ o m, Holds (afterM ops).objs o m → m ∈ (afterM ops).made ∧ m ∉ (afterM ops).released ∧
      ∀ o', Holds (afterM ops).objs o' m → o' = o := by
  have h := afterM_inv ops
  refine ⟨h.nodup, fun o m q => ?_⟩
  obtain ⟨a, b⟩ := h.own.sound o m q
  exact ⟨a, b, fun o' q' => h.own.inj _ _ _ q' q⟩

/-- Once all objects are destroyed, every mapping made has been released exactly once (if the kernel has not
refused one of them to a destructor). -/
theorem C52_mappings_released (ops : List MOp) (hk : ∀ op ∈ ops, MOp.Released op)
    (hg : AllGone (afterM ops).objs) : ∀ m ∈ (afterM ops).made, (afterM ops).released.count m = 1 := by
  intro m hm
  have h := afterM_inv ops
  have hr : m ∈ (afterM ops).released := by
    refine Classical.byContradiction fun hn => ?_
    obtain ⟨o, ho⟩ := h.own.surj hk m ⟨hm, hn⟩
    unfold Holds at ho
    rw [hg o] at ho; cases ho
  rw [h.nodup.count, if_pos hr]

/-- Assigning to an object that has been moved from (or unmapped) does not work: an exception is thrown and
nothing is assigned, whatever is assigned to it. -/
theorem C52_violated_assign_to_empty (s : Maps) (dst src : Nat) (addr : Option Nat) (ok : Bool) (hne : dst ≠ src)
    (hd : s.objs dst = some none) (hs : s.objs src = some addr) : mstep s (.assign dst src ok) = (s, true) := by
  unfold mstep
  simp only [hd, hs, if_neg hne, mmapMunmap, sysMunmap]

/-- Two mappings, a move, an assignment that releases the second one, and the end of all objects. -/
example : (afterM [.make 0 7, .make 1 8, .move 2 0, .assign 1 2 true, .destroy 2 true, .destroy 1 true, .destroy 0 true]).released = [8, 7] ∧
    (afterM [.make 0 7, .make 1 8, .move 2 0, .assign 1 2 true]).objs 1 = some (some 7) := by decide

/-! ## File descriptors -/

/-- The invariant for descriptors, when closing reports no error. -/
structure FInv (s : Files) : Prop where
  own : Own s.objs (fun fd => ∃ f, s.table fd = some f ∧ f ∈ s.opened) True
  nodup : s.closed.Nodup
  cl : ∀ f ∈ s.closed, f ∈ s.opened
  tab : ∀ fd f, s.table fd = some f → f ∉ s.closed ∧ (f ∈ s.opened ∨ f ∈ s.others)
  inj : ∀ fd fd' f, s.table fd = some f → s.table fd' = some f → fd = fd'
  mine : ∀ f ∈ s.opened, f ∈ s.closed ∨ ∃ fd, s.table fd = some f
  oth : ∀ f ∈ s.others, f ∉ s.opened ∧ ∃ fd, s.table fd = some f

theorem release_inv {s : Files} (h : FInv s) {o fd f : Nat} (ho : s.objs o = some (some fd))
    (ht : s.table fd = some f) {v : Option (Option Nat)} (hv : ∀ x, v ≠ some (some x)) :
    FInv { s with objs := upd s.objs o v, table := upd s.table fd none, closed := s.closed ++ [f] } := by
  obtain ⟨f', ht', hf⟩ := h.own.sound o fd ho
  rw [ht] at ht'; injection ht' with e; subst e
  have htab : ∀ x y, upd s.table fd none x = some y ↔ x ≠ fd ∧ s.table x = some y := by
    intro x y
    unfold upd
    by_cases hx : x = fd
    · simp [hx]
    · simp [hx]
  have hne : ∀ x y, x ≠ fd → s.table x = some y → y ≠ f := by
    rintro x y hx hy rfl; exact hx (h.inj _ _ _ hy ht)
  refine ⟨?_, ?_, ?_, ?_, ?_, ?_, ?_⟩
  · refine (h.own.release ho hv).congr ?_
    intro r
    constructor
    · rintro ⟨⟨y, a, b⟩, c⟩; exact ⟨y, (htab r y).2 ⟨c, a⟩, b⟩
    · rintro ⟨y, a, b⟩
      obtain ⟨c, a⟩ := (htab r y).1 a
      exact ⟨⟨y, a, b⟩, c⟩
  · show (s.closed ++ [f]).Nodup
    rw [List.nodup_append]
    refine ⟨h.nodup, by simp, ?_⟩
    intro a ha b hb
    rw [List.mem_singleton.1 hb]; rintro rfl; exact (h.tab _ _ ht).1 ha
  · intro x hx
    rcases List.mem_append.1 hx with hx | hx
    · exact h.cl x hx
    · rw [List.mem_singleton.1 hx]; exact hf
  · intro x y hxy
    obtain ⟨a, b⟩ := (htab x y).1 hxy
    obtain ⟨c, d⟩ := h.tab x y b
    refine ⟨fun q => ?_, d⟩
    rcases List.mem_append.1 q with q | q
    · exact c q
    · exact hne x y a b (List.mem_singleton.1 q)
  · intro x x' y p q
    exact h.inj _ _ _ ((htab _ _).1 p).2 ((htab _ _).1 q).2
  · intro y hy
    rcases h.mine y hy with a | ⟨x, a⟩
    · exact Or.inl (List.mem_append_left _ a)
    · by_cases hx : x = fd
      · left
        rw [hx, ht] at a
        injection a with a
        exact List.mem_append_right _ (by rw [a]; exact List.mem_singleton_self _)
      · exact Or.inr ⟨x, (htab x y).2 ⟨hx, a⟩⟩
  · intro y hy
    obtain ⟨a, x, b⟩ := h.oth y hy
    refine ⟨a, x, (htab x y).2 ⟨?_, b⟩⟩
    rintro rfl
    rw [ht] at b; injection b with b
    rw [← b] at a; exact a hf

theorem close_inv {s : Files} (h : FInv s) (o : Nat) :
    FInv (fdClose s o true).1 ∧ (fdClose s o true).2 = false ∧
    (s.objs o ≠ none → (fdClose s o true).1.objs o = some none) ∧
    (∀ x, x ≠ o → (fdClose s o true).1.objs x = s.objs x) := by
  unfold fdClose
  cases ho : s.objs o with
  | none => exact ⟨h, rfl, fun q => absurd rfl q, fun _ _ => rfl⟩
  | some r =>
    cases r with
    | none => exact ⟨h, rfl, fun _ => ho, fun _ _ => rfl⟩
    | some fd =>
      obtain ⟨f, ht, _⟩ := h.own.sound o fd ho
      simp only [Owners.sysClose, ht]
      exact ⟨release_inv h ho ht (v := some none) (by simp), trivial, fun _ => by simp, fun x hx => upd_ne _ _ hx⟩

theorem FInv.withObjs {s : Files} (h : FInv s) {objs : Nat → Option (Option Nat)}
    (ho : Own objs (fun fd => ∃ f, s.table fd = some f ∧ f ∈ s.opened) True) : FInv { s with objs := objs } :=
  ⟨ho, h.nodup, h.cl, h.tab, h.inj, h.mine, h.oth⟩

theorem fstep_inv {s : Files} (h : FInv s) (op : FOp) (hk : FOp.NoError op) : FInv (fstep s op).1 := by
  cases op with
  | make o fd f =>
    unfold fstep
    by_cases hc : s.objs o = none ∧ s.table fd = none ∧ f ∉ s.opened ∧ f ∉ s.others
    · simp only [if_pos hc]
      obtain ⟨h1, h2, h3, h4⟩ := hc
      have htab : ∀ x y, upd s.table fd (some f) x = some y ↔ (x = fd ∧ y = f) ∨ s.table x = some y := by
        intro x y
        unfold upd
        by_cases hx : x = fd
        · simp only [hx, if_true, h2, true_and]
          constructor
          · intro q; left; simpa using q.symm
          · rintro (rfl | q)
            · rfl
            · cases q
        · simp [hx]
      refine ⟨?_, h.nodup, fun x hx => List.mem_cons_of_mem _ (h.cl x hx), ?_, ?_, ?_, ?_⟩
      · refine (h.own.make (not_holds_of (Or.inl h1)) (r := fd) ?_).congr ?_
        · rintro ⟨y, q, _⟩; rw [h2] at q; cases q
        · intro r
          constructor
          · rintro (⟨y, a, b⟩ | rfl)
            · exact ⟨y, (htab _ _).2 (Or.inr a), List.mem_cons_of_mem _ b⟩
            · exact ⟨f, (htab _ _).2 (Or.inl ⟨rfl, rfl⟩), List.mem_cons_self⟩
          · rintro ⟨y, a, b⟩
            rcases (htab _ _).1 a with ⟨rfl, rfl⟩ | a'
            · exact Or.inr rfl
            · left
              refine ⟨y, a', ?_⟩
              rcases List.mem_cons.1 b with rfl | b
              · rcases (h.tab _ _ a').2 with q | q
                · exact q
                · exact absurd q h4
              · exact b
      · intro x y q
        rcases (htab _ _).1 q with ⟨rfl, rfl⟩ | q
        · exact ⟨fun q => h3 (h.cl _ q), Or.inl List.mem_cons_self⟩
        · obtain ⟨a, b⟩ := h.tab _ _ q
          exact ⟨a, b.elim (fun b => Or.inl (List.mem_cons_of_mem _ b)) Or.inr⟩
      · intro x x' y q q'
        rcases (htab _ _).1 q with ⟨rfl, rfl⟩ | p
        · rcases (htab _ _).1 q' with ⟨rfl, _⟩ | p'
          · rfl
          · rcases (h.tab _ _ p').2 with q | q
            · exact absurd q h3
            · exact absurd q h4
        · rcases (htab _ _).1 q' with ⟨rfl, rfl⟩ | p'
          · rcases (h.tab _ _ p).2 with q | q
            · exact absurd q h3
            · exact absurd q h4
          · exact h.inj _ _ _ p p'
      · intro y hy
        rcases List.mem_cons.1 hy with rfl | hy
        · exact Or.inr ⟨fd, (htab _ _).2 (Or.inl ⟨rfl, rfl⟩)⟩
        · exact (h.mine y hy).elim Or.inl (fun ⟨x, q⟩ => Or.inr ⟨x, (htab _ _).2 (Or.inr q)⟩)
      · intro y hy
        obtain ⟨a, x, b⟩ := h.oth y hy
        refine ⟨fun q => ?_, x, (htab _ _).2 (Or.inr b)⟩
        rcases List.mem_cons.1 q with rfl | q
        · exact h4 hy
        · exact a q
    · simp only [if_neg hc]; exact h
  | elsewhere fd f =>
    unfold fstep
    by_cases hc : s.table fd = none ∧ f ∉ s.opened ∧ f ∉ s.others
    · simp only [if_pos hc]
      obtain ⟨h2, h3, h4⟩ := hc
      have htab : ∀ x y, upd s.table fd (some f) x = some y ↔ (x = fd ∧ y = f) ∨ s.table x = some y := by
        intro x y
        unfold upd
        by_cases hx : x = fd
        · simp only [hx, if_true, h2, true_and]
          constructor
          · intro q; left; simpa using q.symm
          · rintro (rfl | q)
            · rfl
            · cases q
        · simp [hx]
      refine ⟨?_, h.nodup, h.cl, ?_, ?_, ?_, ?_⟩
      · refine h.own.congr ?_
        intro r
        constructor
        · rintro ⟨y, a, b⟩; exact ⟨y, (htab _ _).2 (Or.inr a), b⟩
        · rintro ⟨y, a, b⟩
          rcases (htab _ _).1 a with ⟨rfl, rfl⟩ | a
          · exact absurd b h3
          · exact ⟨y, a, b⟩
      · intro x y q
        rcases (htab _ _).1 q with ⟨rfl, rfl⟩ | q
        · exact ⟨fun q => h3 (h.cl _ q), Or.inr List.mem_cons_self⟩
        · obtain ⟨a, b⟩ := h.tab _ _ q
          exact ⟨a, b.elim Or.inl (fun b => Or.inr (List.mem_cons_of_mem _ b))⟩
      · intro x x' y q q'
        rcases (htab _ _).1 q with ⟨rfl, rfl⟩ | p
        · rcases (htab _ _).1 q' with ⟨rfl, _⟩ | p'
          · rfl
          · rcases (h.tab _ _ p').2 with q | q
            · exact absurd q h3
            · exact absurd q h4
        · rcases (htab _ _).1 q' with ⟨rfl, rfl⟩ | p'
          · rcases (h.tab _ _ p).2 with q | q
            · exact absurd q h3
            · exact absurd q h4
          · exact h.inj _ _ _ p p'
      · intro y hy
        exact (h.mine y hy).elim Or.inl (fun ⟨x, q⟩ => Or.inr ⟨x, (htab _ _).2 (Or.inr q)⟩)
      · intro y hy
        rcases List.mem_cons.1 hy with rfl | hy
        · exact ⟨h3, fd, (htab _ _).2 (Or.inl ⟨rfl, rfl⟩)⟩
        · obtain ⟨a, x, b⟩ := h.oth y hy
          exact ⟨a, x, (htab _ _).2 (Or.inr b)⟩
    · simp only [if_neg hc]; exact h
  | move o src =>
    unfold fstep
    dsimp only
    cases ho : s.objs o with
    | some _ => exact h
    | none =>
      cases hs : s.objs src with
      | none => exact h
      | some addr =>
        refine h.withObjs (h.own.transfer (fun e => ?_) (not_holds_of (Or.inl ho)) hs)
        rw [e, hs] at ho; cases ho
  | assign dst src ok =>
    have hk' : ok = true := hk
    subst hk'
    unfold fstep
    dsimp only
    cases ho : s.objs dst with
    | none => exact h
    | some a =>
      cases hs : s.objs src with
      | none => exact h
      | some addr =>
        dsimp only
        by_cases hc : dst = src
        · rw [if_pos hc]; exact h
        · rw [if_neg hc]
          obtain ⟨i1, i0, i2, i3⟩ := close_inv h dst
          cases hm : fdClose s dst true with
          | mk s' t =>
            rw [hm] at i0 i1 i2 i3
            dsimp only at i0
            subst i0
            refine i1.withObjs (i1.own.transfer hc (not_holds_of (Or.inr (i2 (by rw [ho]; simp)))) ?_)
            exact (i3 src (Ne.symm hc)).trans hs
  | close o ok =>
    have hk' : ok = true := hk
    subst hk'
    exact (close_inv h o).1
  | destroy o ok =>
    unfold fstep
    dsimp only
    cases ho : s.objs o with
    | none => exact h
    | some r =>
      cases r with
      | none => exact h.withObjs (h.own.drop (not_holds_of (Or.inr ho)) (by simp))
      | some fd =>
        obtain ⟨f, ht, _⟩ := h.own.sound o fd ho
        simp only [Owners.sysClose, ht]
        exact release_inv h ho ht (v := none) (by simp)

theorem afterF_inv (ops : List FOp) (hk : ∀ op ∈ ops, FOp.NoError op) : FInv (afterF ops) := by
  have key : ∀ (ops : List FOp) (s : Files), (∀ op ∈ ops, FOp.NoError op) → FInv s →
      FInv (ops.foldl (fun s op => (fstep s op).1) s) := by
    intro ops
    induction ops with
    | nil => intro s _ h; exact h
    | cons op ops ih =>
      intro s hk h
      exact ih _ (fun x hx => hk x (List.mem_cons_of_mem _ hx)) (fstep_inv h op (hk op List.mem_cons_self))
  refine key ops noFiles hk ⟨⟨?_, ?_, ?_⟩, List.nodup_nil, by simp [noFiles], ?_, ?_, by simp [noFiles], by simp [noFiles]⟩
  · intro o r q; simp [Holds, noFiles] at q
  · intro o o' r q; simp [Holds, noFiles] at q
  · intro _ r q; simp [noFiles] at q
  · intro fd f q; simp [noFiles] at q
  · intro fd fd' f q; simp [noFiles] at q

/-- As long as closing reports no error: after every sequence of operations no file has been closed twice, the files
opened elsewhere are all still open, and what an object has is the descriptor of an open file that was
opened by an object, and no other object has it. -/
theorem C52_files_partial (ops : List FOp) (hk : ∀ op ∈ ops, FOp.NoError op) :
    (afterF ops).closed.Nodup ∧
    (∀ f ∈ (afterF ops).others, f ∉ (afterF ops).closed ∧ ∃ fd, (afterF ops).table fd = some f) ∧
    ∀ o fd, Holds (afterF ops).objs o fd →
      (∃ f, (afterF ops).table fd = some f ∧ f ∈ (afterF ops).opened ∧ f ∉ (afterF ops).closed) ∧
      ∀ o', Holds (afterF ops).objs o' fd → o' = o := by
  have h := afterF_inv ops hk
  refine ⟨h.nodup, fun f hf => ?_, fun o fd q => ?_⟩
  · obtain ⟨a, x, b⟩ := h.oth f hf
    exact ⟨fun q => a (h.cl f q), x, b⟩
  · obtain ⟨f, a, b⟩ := h.own.sound o fd q
    exact ⟨⟨f, a, b, (h.tab _ _ a).1⟩, fun o' q' => h.own.inj _ _ _ q' q⟩

/-- Once all objects are destroyed, every file that they opened has been closed exactly once. -/
theorem C52_files_closed_partial (ops : List FOp) (hk : ∀ op ∈ ops, FOp.NoError op)
    (hg : AllGone (afterF ops).objs) : ∀ f ∈ (afterF ops).opened, (afterF ops).closed.count f = 1 := by
  intro f hf
  have h := afterF_inv ops hk
  have hr : f ∈ (afterF ops).closed := by
    rcases h.mine f hf with q | ⟨fd, q⟩
    · exact q
    · exfalso
      obtain ⟨o, ho⟩ := h.own.surj trivial fd ⟨f, q, hf⟩
      unfold Holds at ho
      rw [hg o] at ho; cases ho
  rw [h.nodup.count, if_pos hr]

/-- When closing reports an error the object keeps the descriptor, which is closed already: its destructor closes
the file that another part of the program has opened in the meantime. -/
theorem C52_violated_close_error :
    let s := afterF [.make 0 3 100, .close 0 false, .elsewhere 3 200, .destroy 0 true]
    200 ∈ s.others ∧ 200 ∈ s.closed ∧ s.table 3 = none := by decide

/-- Two files, a move, an assignment that closes the second one, and the end of all objects. -/
example : (afterF [.make 0 3 100, .make 1 4 101, .elsewhere 5 200, .move 2 0, .assign 1 2 true, .make 0 4 102,
    .destroy 2 true, .destroy 1 true]).closed = [101, 100] := by decide

end Msat.Props
