import Verif.Props.C38_C39

namespace Msat.Props
open Sys SysSpec

theorem inScope_done {p : Proc α} {d : OS → OS} {os os' : OS} {rs rs' : List Answer} {a : α}
    (h : inScope p d os rs = .done a os' rs') : ∃ o, p os rs = .done a o rs' ∧ os' = d o := by
  unfold inScope at h
  cases e : p os rs with
  | done b o r => rw [e] at h; injection h with h1 h2 h3; subst h1 h3; exact ⟨o, rfl, h2.symm⟩
  | threw o r => rw [e] at h; cases h
  | running o => rw [e] at h; cases h

/-- After `write_file` the file holds the data, whatever it was before; the permissions of a file that existed
do not change; files that are not the same file are as they were, and the descriptor is released. -/
theorem C63_write (file data : Bytes) (mode : Nat) (os os' : OS) (rs rs' : List Answer) (hsound : Sound os)
    (h : writeFile file data mode os rs = .done () os' rs') :
    contentOf os' file = some data ∧
    modeOf os' file = (if os.dir file = none then some (mode &&& (0o777 ^^^ os.umask)) else modeOf os file) ∧
    (∀ name, name ≠ file → os.dir name ≠ os.dir file → contentOf os' name = contentOf os name ∧ modeOf os' name = modeOf os name) ∧
    os'.fds = os.fds := by
  cases rs with
  | nil => cases h
  | cons a rs =>
    cases a with
    | err => cases h
    | ok n => cases h
    | opened fd new suffix =>
      -- what opening does
      have hopen : ∀ os1 fd', call (sysCreate file mode) os (.opened fd new suffix :: rs) = .done fd' os1 rs →
          fd' = fd ∧ os.fds fd = none ∧ os1.umask = os.umask ∧ os1.fds = upd os.fds fd (os1.fds fd) ∧
          ∃ ino m, os1.fds fd = some (ino, 0) ∧ os1.inode ino = some ⟨[], m⟩ ∧ os1.dir file = some ino ∧
            (some m = if os.dir file = none then some (mode &&& (0o777 ^^^ os.umask)) else modeOf os file) ∧
            (∀ name, name ≠ file → os1.dir name = os.dir name) ∧
            (∀ name, name ≠ file → os.dir name ≠ os.dir file → os.dir name ≠ some ino) ∧
            (∀ j, j ≠ ino → os1.inode j = os.inode j) := by
        intro os1 fd' h1
        simp only [call, sysCreate] at h1
        by_cases hfd : os.fds fd = none
        · rw [if_pos hfd] at h1
          cases hd : os.dir file with
          | some old =>
            obtain ⟨i, hi⟩ := hsound _ _ hd
            rw [hd] at h1
            simp only [hi, Option.bind_eq_bind, Option.bind_some] at h1
            injection h1 with h1 h2 _
            subst h1 h2
            refine ⟨rfl, hfd, rfl, by simp, old, i.mode, upd_same _ _ _, upd_same _ _ _, hd, ?_, fun _ _ => rfl, ?_, ?_⟩
            · simp [modeOf, hd, hi]
            · intro name _ hne; exact hne
            · intro j hj; exact upd_ne _ _ hj
          | none =>
            rw [hd] at h1
            dsimp only at h1
            by_cases hn : os.inode new = none
            · rw [if_pos hn] at h1
              injection h1 with h1 h2 _
              subst h1 h2
              refine ⟨rfl, hfd, rfl, by simp, new, mode &&& (0o777 ^^^ os.umask), upd_same _ _ _, upd_same _ _ _, upd_same _ _ _,
                by simp, fun name h => upd_ne _ _ h, ?_, fun j hj => upd_ne _ _ hj⟩
              intro name _ _ e
              obtain ⟨i, hi⟩ := hsound _ _ e
              rw [hn] at hi
              cases hi
            · rw [if_neg hn] at h1; cases h1
        · rw [if_neg hfd] at h1; cases h1
      unfold writeFile at h
      cases e1 : call (sysCreate file mode) os (.opened fd new suffix :: rs) with
      | threw o r => rw [bind_threw e1] at h; cases h
      | running o => rw [bind_running e1] at h; cases h
      | done fd' os1 rs1 =>
        have hrs : rs1 = rs := by
          simp only [call] at e1
          split at e1
          · injection e1 with _ _ h; exact h.symm
          · cases e1
        subst hrs
        obtain ⟨rfl, hfdn, hum, hfds, ino, m, hf, hi, hdf, hm, hdn, hnn, hin⟩ := hopen os1 fd' e1
        rw [bind_done e1] at h
        obtain ⟨o, h, ho⟩ := inScope_done h
        obtain ⟨k, _, h2, h3⟩ := writeAll_spec fd' ino rs1 data os1 0 _ hf hi
        cases e3 : writeAllOrRetry fd' data os1 rs1 with
        | threw o r => rw [bind_threw e3] at h; cases h
        | running o => rw [bind_running e3] at h; cases h
        | done u os3 rs3 =>
          rw [bind_done e3] at h
          rw [e3] at h2
          have hk := h3 os3 rs3 e3
          have h2 : os3 = wrote os1 fd' ino 0 ⟨[], m⟩ data := by
            have : os3 = wrote os1 fd' ino 0 ⟨[], m⟩ (data.take k) := h2
            rw [this, hk, List.take_of_length_le (Nat.le_refl _)]
          have hi3 : os3.inode ino = some ⟨data, m⟩ := by
            rw [h2, wrote_inode _ hi]
            split
            · rename_i h; rw [h]
            · simp [writeAt]
          have hino3 : ∀ j, j ≠ ino → os3.inode j = os.inode j := fun j hj => by rw [h2, wrote_inode_ne _ hj, hin j hj]
          have hdir3 : os3.dir = os1.dir := by rw [h2, wrote_dir]
          have hfds3 : ∀ f, f ≠ fd' → os3.fds f = os.fds f := fun f hf => by
            rw [h2, wrote_fds_ne _ hf, hfds, upd_ne _ _ hf]
          cases rs3 with
          | nil => cases h
          | cons a rs3 =>
            cases a with
            | err => cases h
            | opened _ _ _ => cases h
            | ok n =>
              simp only [call, sysClose] at h
              injection h with _ h _
              subst h
              have hd' : os'.dir = os1.dir := by rw [ho]; exact hdir3
              have hi' : os'.inode = os3.inode := by rw [ho]; rfl
              refine ⟨?_, ?_, ?_, ?_⟩
              · unfold contentOf; rw [hd', hdf]; dsimp only; rw [hi', hi3]; rfl
              · unfold modeOf; rw [hd', hdf]; dsimp only; rw [hi', hi3]; exact hm
              · intro name hne hne2
                have := hnn name hne hne2
                unfold contentOf modeOf
                rw [hd', hdn name hne]
                cases hd2 : os.dir name with
                | none => exact ⟨rfl, rfl⟩
                | some j =>
                  have hj : j ≠ ino := by rintro rfl; exact this hd2
                  dsimp only
                  rw [hi', hino3 j hj]
                  exact ⟨rfl, rfl⟩
              · rw [ho]
                funext f
                show upd (upd os3.fds fd' none) fd' none f = _
                by_cases e : f = fd'
                · rw [e, upd_same, hfdn]
                · rw [upd_ne _ _ e, upd_ne _ _ e, hfds3 f e]

/-- `read_file` returns the content of the file and changes nothing; it does not return if there is no file. -/
theorem C63_read (file b : Bytes) (os os' : OS) (rs rs' : List Answer)
    (h : readFile file os rs = .done b os' rs') :
    contentOf os file = some b ∧ os'.dir = os.dir ∧ os'.inode = os.inode ∧ os'.fds = os.fds := by
  unfold readFile at h
  cases rs with
  | nil => cases h
  | cons a rs =>
    cases a with
    | err => cases h
    | ok n => cases h
    | opened fd new suffix =>
      cases e1 : call (sysOpen file) os (.opened fd new suffix :: rs) with
      | threw o r => rw [bind_threw e1] at h; cases h
      | running o => rw [bind_running e1] at h; cases h
      | done fd' os1 rs1 =>
        rw [bind_done e1] at h
        simp only [call, sysOpen] at e1
        by_cases hfd : os.fds fd = none
        · rw [if_pos hfd] at e1
          cases hd : os.dir file with
          | none => simp [hd] at e1
          | some ino =>
            simp only [hd, Option.bind_eq_bind, Option.bind_some] at e1
            injection e1 with e1 e2 e3
            subst e1 e2 e3
            obtain ⟨o, h, ho⟩ := inScope_done h
            cases rs with
            | nil => cases h
            | cons a rs =>
              cases a with
              | err => cases h
              | opened _ _ _ => cases h
              | ok n =>
                cases hi : os.inode ino with
                | none => simp [bind, call, sysSize, hi, upd] at h
                | some i =>
                  have e2 : call (sysSize fd) { os with fds := upd os.fds fd (some (ino, 0)) } (.ok n :: rs) =
                      .done i.content.length { os with fds := upd os.fds fd (some (ino, 0)) } rs := by
                    simp [call, sysSize, hi]
                  rw [bind_done e2] at h
                  have fin : ∀ o : OS, o = { os with fds := upd os.fds fd (some (ino, 0)) } → os' = closeDtor fd o →
                      os'.dir = os.dir ∧ os'.inode = os.inode ∧ os'.fds = os.fds := by
                    intro o h1 h2
                    subst h1 h2
                    refine ⟨rfl, rfl, ?_⟩
                    show upd (upd os.fds fd _) fd none = _
                    rw [upd_upd, upd_self _ _ _ hfd]
                  split at h
                  · rename_i h0
                    injection h with h1 h2 _
                    have : b = i.content := by rw [List.eq_nil_of_length_eq_zero h0, ← h1]
                    refine ⟨?_, fin o h2.symm ho⟩
                    unfold contentOf; rw [hd]; dsimp only; rw [hi, this]; rfl
                  · cases rs with
                    | nil => cases h
                    | cons a rs =>
                      cases a with
                      | err => cases h
                      | opened _ _ _ => cases h
                      | ok n =>
                        simp only [call, sysMmap, upd_same, hi, Option.bind_eq_bind, Option.bind_some] at h
                        injection h with h1 h2 _
                        have : b = i.content := by rw [← h1, List.take_of_length_le (Nat.le_refl _)]
                        refine ⟨?_, fin o h2.symm ho⟩
                        unfold contentOf; rw [hd]; dsimp only; rw [hi, this]; rfl
        · rw [if_neg hfd] at e1; cases e1

/-- A file that has been written, by either function, is read back as it was written, under every schedule. -/
theorem C63_write_then_read (file data b : Bytes) (mode : Nat) (os os1 os2 : OS) (rs rs1 rs2 : List Answer) (hsound : Sound os)
    (hw : writeFile file data mode os rs = .done () os1 rs1 ∨ writeFileAtomically file data mode os rs = .done () os1 rs1)
    (hr : readFile file os1 rs1 = .done b os2 rs2) : b = data := by
  have h1 : contentOf os1 file = some data := by
    rcases hw with h | h
    · exact (C63_write file data mode os os1 rs rs1 hsound h).1
    · exact (C38_success file data mode os os1 rs rs1 hsound h).1
  have h2 := (C63_read file b os1 os2 rs1 rs2 hr).1
  rw [h1] at h2
  injection h2 with h2
  exact h2.symm

/-- Overwriting "a" with a shorter content, a new file, and reading. -/
example : (∃ os1 rs1, writeFile [97] [7] 0o666 sampleOS [.opened 4 1 [], .ok 1, .ok 0] = .done () os1 rs1 ∧
      contentOf os1 [97] = some [7] ∧ ∃ os2 rs2, readFile [97] os1 [.opened 5 0 [], .ok 0, .ok 0] = .done [7] os2 rs2) ∧
    (∃ os1 rs1, writeFile [98] [7] 0o666 sampleOS [.opened 4 1 [], .ok 1, .ok 0] = .done () os1 rs1 ∧
      modeOf os1 [98] = some 0o644) :=
  ⟨⟨_, _, rfl, rfl, _, _, rfl⟩, _, _, rfl, rfl⟩

end Msat.Props
