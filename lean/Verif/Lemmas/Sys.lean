import Verif.Spec.Sys

namespace Msat.Sys
open SysSpec

@[simp] theorem upd_same [DecidableEq α] (f : α → β) (a : α) (b : β) : upd f a b a = b := by simp [upd]

theorem upd_ne [DecidableEq α] (f : α → β) {a x : α} (b : β) (h : x ≠ a) : upd f a b x = f x := by simp [upd, h]

theorem upd_upd [DecidableEq α] (f : α → β) (a : α) (b c : β) : upd (upd f a b) a c = upd f a c := by
  funext x; unfold upd; split <;> rfl

theorem upd_self [DecidableEq α] (f : α → β) (a : α) (b : β) (h : f a = b) : upd f a b = f := by
  funext x; unfold upd; split
  · rename_i e; rw [e, h]
  · rfl

theorem bind_done {p : Proc α} {f : α → Proc β} {os os' : OS} {rs rs' : List Answer} {a : α}
    (h : p os rs = .done a os' rs') : (p >>= f) os rs = f a os' rs' := by
  show (match p os rs with | .done a os rs => f a os rs | .threw os rs => .threw os rs | .running os => .running os) = _
  rw [h]

theorem bind_threw {p : Proc α} {f : α → Proc β} {os os' : OS} {rs rs' : List Answer}
    (h : p os rs = .threw os' rs') : (p >>= f) os rs = .threw os' rs' := by
  show (match p os rs with | .done a os rs => f a os rs | .threw os rs => .threw os rs | .running os => .running os) = _
  rw [h]

theorem bind_running {p : Proc α} {f : α → Proc β} {os os' : OS} {rs : List Answer}
    (h : p os rs = .running os') : (p >>= f) os rs = .running os' := by
  show (match p os rs with | .done a os rs => f a os rs | .threw os rs => .threw os rs | .running os => .running os) = _
  rw [h]

/-! ### writeAt -/

theorem writeAt_length (c : Bytes) (p : Nat) (d : Bytes) : (writeAt c p d).length = max c.length (p + d.length) := by
  unfold writeAt
  simp only [List.length_append, List.length_take, List.length_replicate, List.length_drop]
  omega

theorem writeAt_head_length (c : Bytes) (p : Nat) :
    (c.take p ++ List.replicate (p - c.length) (0 : UInt8)).length = p := by
  simp only [List.length_append, List.length_take, List.length_replicate]
  omega

theorem writeAt_writeAt (c : Bytes) (p : Nat) (d e : Bytes) :
    writeAt (writeAt c p d) (p + d.length) e = writeAt c p (d ++ e) := by
  have hl := writeAt_length c p d
  have hh := writeAt_head_length c p
  generalize hH : c.take p ++ List.replicate (p - c.length) (0 : UInt8) = H at hh
  have hw : writeAt c p d = (H ++ d) ++ c.drop (p + d.length) := by unfold writeAt; rw [hH]
  have hw2 : writeAt c p (d ++ e) = (H ++ d) ++ (e ++ c.drop (p + d.length + e.length)) := by
    unfold writeAt; rw [hH]; simp [Nat.add_assoc]
  have hlen : (H ++ d).length = p + d.length := by simp [hh]
  rw [hw2]
  have h0 : p + d.length - (writeAt c p d).length = 0 := by omega
  rw [hw] at h0 ⊢
  show List.take _ _ ++ List.replicate _ 0 ++ e ++ List.drop _ _ = _
  rw [h0]
  rw [List.take_append_of_le_length (by omega), List.take_of_length_le (by omega)]
  rw [List.drop_append, List.drop_eq_nil_of_le (by omega), hlen, List.drop_drop]
  simp

theorem overwritten_writeAt (c : Bytes) (p : Nat) (d : Bytes) (hd : d ≠ []) : Overwritten c p d (writeAt c p d) := by
  refine ⟨writeAt_length c p d, ?_⟩
  intro k hk
  rw [writeAt_length] at hk
  have hd' : 0 < d.length := List.length_pos_iff.2 hd
  have hh := writeAt_head_length c p
  unfold writeAt
  rw [List.append_assoc, List.getElem?_append, hh]
  split
  · rename_i h
    rw [if_neg (by omega), List.getElem?_append, List.length_take]
    split
    · rename_i h2
      rw [if_pos (by omega), List.getElem?_take, if_pos h]
    · rename_i h2
      rw [if_neg (by omega), List.getElem?_replicate, if_pos (by omega)]
  · rename_i h
    rw [List.getElem?_append]
    split
    · rename_i h2
      rw [if_pos (by omega)]
    · rename_i h2
      rw [if_neg (by omega), if_pos (by omega), List.getElem?_drop]
      congr 1
      omega

/-! ### The state after writing -/

/-- The system after `data` has been written. -/
def wrote (os : OS) (fd ino pos : Nat) (i : Inode) (data : Bytes) : OS :=
  if data = [] then os
  else { os with
    inode := upd os.inode ino (some { i with content := writeAt i.content pos data })
    fds := upd os.fds fd (some (ino, pos + data.length)) }

theorem wrote_dir (os fd ino pos i data) : (wrote os fd ino pos i data).dir = os.dir := by
  unfold wrote; split <;> rfl

theorem wrote_umask (os fd ino pos i data) : (wrote os fd ino pos i data).umask = os.umask := by
  unfold wrote; split <;> rfl

theorem wrote_fds {os : OS} {fd ino pos : Nat} {i : Inode} (data : Bytes) (hf : os.fds fd = some (ino, pos)) :
    (wrote os fd ino pos i data).fds fd = some (ino, pos + data.length) := by
  unfold wrote; split
  · rename_i h; rw [h, hf]; rfl
  · exact upd_same _ _ _

theorem wrote_inode {os : OS} {fd ino pos : Nat} {i : Inode} (data : Bytes) (hi : os.inode ino = some i) :
    (wrote os fd ino pos i data).inode ino =
      some (if data = [] then i else { i with content := writeAt i.content pos data }) := by
  unfold wrote; split
  · rename_i h; rw [hi]
  · exact upd_same _ _ _

theorem wrote_inode_ne {os : OS} {fd ino pos : Nat} {i : Inode} (data : Bytes) {j : Nat} (h : j ≠ ino) :
    (wrote os fd ino pos i data).inode j = os.inode j := by
  unfold wrote; split
  · rfl
  · exact upd_ne _ _ h

theorem wrote_fds_ne {os : OS} {fd ino pos : Nat} {i : Inode} (data : Bytes) {j : Nat} (h : j ≠ fd) :
    (wrote os fd ino pos i data).fds j = os.fds j := by
  unfold wrote; split
  · rfl
  · exact upd_ne _ _ h

/-- The loop of `write_all_or_retry`. -/
theorem writeAll_spec (fd ino : Nat) : ∀ (rs : List Answer) (buf : Bytes) (os : OS) (pos : Nat) (i : Inode),
    os.fds fd = some (ino, pos) → os.inode ino = some i →
    ∃ k, k ≤ buf.length ∧ (writeAllOrRetry fd buf os rs).os = wrote os fd ino pos i (buf.take k) ∧
      (∀ os' rs', writeAllOrRetry fd buf os rs = .done () os' rs' → k = buf.length) := by
  intro rs
  induction rs with
  | nil =>
    intro buf os pos i hf hi
    rw [writeAllOrRetry.eq_def]
    split
    · rename_i h
      exact ⟨0, by simp, by simp [wrote, Run.os], by simp [h]⟩
    · exact ⟨0, by simp, by simp [wrote, Run.os], by intro _ _ h; cases h⟩
  | cons r rs ih =>
    intro buf os pos i hf hi
    rw [writeAllOrRetry.eq_def]
    split
    · rename_i h
      exact ⟨0, by simp, by simp [wrote, Run.os], by simp [h]⟩
    · rename_i hb
      dsimp only
      cases r with
      | err => exact ⟨0, by simp, by simp [wrote, Run.os, sysWrite], by intro _ _ h; cases h⟩
      | opened _ _ _ => exact ⟨0, by simp, by simp [wrote, Run.os, sysWrite], by intro _ _ h; cases h⟩
      | ok n =>
        have hs : sysWrite fd buf os (.ok n) = some (min n buf.length, wrote os fd ino pos i (buf.take (min n buf.length))) := by
          simp only [sysWrite, hf, hi, Option.bind_eq_bind, Option.bind_some]
          by_cases h0 : min n buf.length = 0
          · rw [if_pos h0, h0]; simp [wrote]
          · rw [if_neg h0]
            unfold wrote
            have : buf.take (min n buf.length) ≠ [] := by
              intro he
              have := congrArg List.length he
              rw [List.length_take] at this
              simp only [List.length_nil] at this
              omega
            rw [if_neg this, List.length_take]
            have : min (min n buf.length) buf.length = min n buf.length := by omega
            rw [this]
        rw [hs]
        dsimp only
        generalize hk : min n buf.length = k at *
        have hkl : (buf.take k).length = k := by rw [List.length_take]; omega
        have hf' := wrote_fds (i := i) (buf.take k) hf
        have hi' := wrote_inode (fd := fd) (pos := pos) (buf.take k) hi
        rw [hkl] at hf'
        obtain ⟨k', h1, h2, h3⟩ := ih (buf.drop k) _ _ _ hf' hi'
        have hkk : k + k' ≤ buf.length := by rw [List.length_drop] at h1; omega
        refine ⟨k + k', hkk, ?_, ?_⟩
        · rw [h2]
          have e : buf.take (k + k') = buf.take k ++ (buf.drop k).take k' := by rw [List.take_add]
          rw [e]
          generalize ha : buf.take k = a at *
          generalize (buf.drop k).take k' = b at *
          by_cases h4 : a = []
          · subst h4
            simp only [List.length_nil] at hkl
            subst hkl
            simp [wrote]
          · by_cases h5 : b = []
            · subst h5; simp [wrote, h4]
            · have h6 : a ++ b ≠ [] := by simp [h4]
              simp only [wrote, h4, h5, h6, if_false, upd_upd]
              rw [← hkl, writeAt_writeAt, List.length_append, Nat.add_assoc]
        · intro os' rs' h
          have := h3 os' rs' h
          rw [List.length_drop] at this
          omega

end Msat.Sys
