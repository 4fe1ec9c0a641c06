import Verif.Model.HriFile
import Verif.Spec.HriFile
import Verif.Lemmas.Outcome
import Verif.Props.C32_C33

namespace Msat.Props
open Hri HriSpec

theorem take_app {α} {a b : List α} {n : Nat} (h : a.length = n) : (a ++ b).take n = a := by
  subst h; simp
theorem drop_app {α} {a b : List α} {n : Nat} (h : a.length = n) : (a ++ b).drop n = b := by
  subst h; simp

theorem read_app (a rest buf : Bytes) (n : Nat) (h : a.length = n) :
    In.read ⟨a ++ rest, false⟩ buf n = (a ++ buf.drop n, ⟨rest, false⟩) := by
  unfold In.read
  dsimp only
  rw [if_neg (by simp), if_pos (by rw [List.length_append]; omega), take_app h, drop_app h]

/-- A good frame is read. -/
theorem getbuff_frame (id : UInt8) (p rest : Bytes) (hp : p.length = 360) :
    getbuff false ⟨frame id p ++ rest, false⟩ = .ok (frame id p, ⟨rest, false⟩) := by
  have hl : (frame id p).length = 364 := by simp [frame, hp]
  unfold getbuff
  rw [read_app _ _ _ _ hl, List.drop_of_length_le (Nat.le_of_eq List.length_replicate), List.append_nil]
  dsimp only
  rw [if_neg (by simp), if_pos]
  simp [syncOk, frame, load]

theorem frames_length (id : UInt8) (n : Nat) : ∀ p : Bytes, p.length = 360 * n → (frames id n p).length = 364 * n := by
  induction n with
  | zero => intro p _; rfl
  | succ n ih =>
    intro p hp
    rw [frames, List.length_append, ih _ (by rw [List.length_drop]; omega)]
    simp only [frame, List.length_append, List.length_take, List.length_cons, List.length_nil]
    omega

/-- Frame by frame. -/
theorem frames_succ (id : UInt8) (n : Nat) (p : Bytes) : frames id (n + 1) p = frame id (p.take 360) ++ frames id n (p.drop 360) := rfl

theorem getbuff_frames (id : UInt8) (n : Nat) (p rest : Bytes) (hp : 360 ≤ p.length) :
    getbuff false ⟨frames id (n + 1) p ++ rest, false⟩ = .ok (frame id (p.take 360), ⟨frames id n (p.drop 360) ++ rest, false⟩) := by
  rw [frames_succ, List.append_assoc, getbuff_frame _ _ _ (by rw [List.length_take]; omega)]

theorem part_frame (id : UInt8) (p : Bytes) (off n : Nat) : part (frame id p) (off + 4) n = part p off n := by
  unfold part frame
  rw [show off + 4 = 4 + off by omega, ← List.drop_drop]
  rfl

theorem part_take (p : Bytes) (off n m : Nat) (h : off + n ≤ m) : part (p.take m) off n = part p off n := by
  unfold part
  rw [List.drop_take, List.take_take, Nat.min_eq_left (by omega)]

theorem part_drop (p : Bytes) (a off n : Nat) : part (p.drop a) off n = part p (a + off) n := by
  unfold part
  rw [List.drop_drop]

theorem part_append (p : Bytes) (off a b : Nat) : part p off a ++ part p (off + a) b = part p off (a + b) := by
  unfold part
  rw [List.take_add, List.drop_drop]

theorem part_length (p : Bytes) (off n : Nat) (h : off + n ≤ p.length) : (part p off n).length = n := by
  unfold part; rw [List.length_take, List.length_drop]; omega

theorem overwrite_at (a b p : Bytes) (pos : Nat) (h : a.length = pos) :
    overwrite (a ++ b) pos p = a ++ p ++ b.drop p.length := by
  unfold overwrite
  rw [take_app h, ← h, List.drop_append, List.drop_of_length_le (by omega), List.nil_append]
  congr 2
  omega

theorem overwrite_zero (b p : Bytes) : overwrite b 0 p = p ++ b.drop p.length := by
  simp [overwrite]

/-- One more part of a line. -/
theorem overwrite_part (q b : Bytes) (off a n : Nat) (h : off + a + n ≤ q.length) :
    overwrite (part q off a ++ b.drop a) a (part q (off + a) n) = part q off (a + n) ++ b.drop (a + n) := by
  rw [overwrite_at _ _ _ _ (part_length _ _ _ (by omega)), part_length _ _ _ (by omega), List.drop_drop, part_append]

/-- A subframe is read: its pixels replace the beginning of the line. -/
theorem dataline_sub (f : Format) (s : Sub) (hs : s.Sized f) (rest buf : Bytes) :
    dataline false false (idOf f) ⟨subFrames f s ++ rest, false⟩ buf = .ok (s.line ++ buf.drop (width f), ⟨rest, false⟩) := by
  have h1 := hs.head
  have h2 := hs.line
  have h3 := hs.tail
  unfold dataline subFrames
  rw [if_neg (by simp)]
  generalize hq : s.head ++ s.line ++ s.tail = q
  by_cases hf : f = .A
  · subst hf
    rw [if_pos rfl] at h1 h3
    replace h2 : s.line.length = 2500 := h2
    have hlen : q.length = 2880 := by rw [← hq]; simp only [List.length_append]; omega
    have hline : part q 64 2500 = s.line := by
      rw [← hq, part, List.append_assoc, drop_app h1, take_app h2]
    unfold getDataline
    rw [show idOf .A = 112 from rfl, show framesOf .A = 8 from rfl, show width .A = 2500 from rfl, if_pos rfl]
    rw [getbuff_frames _ _ _ _ (by omega), Outcome.ok_bind]
    dsimp only
    rw [getbuff_frames _ _ _ _ (by simp only [List.length_drop]; omega), Outcome.ok_bind]
    dsimp only
    rw [getbuff_frames _ _ _ _ (by simp only [List.length_drop]; omega), Outcome.ok_bind]
    dsimp only
    rw [getbuff_frames _ _ _ _ (by simp only [List.length_drop]; omega), Outcome.ok_bind]
    dsimp only
    rw [getbuff_frames _ _ _ _ (by simp only [List.length_drop]; omega), Outcome.ok_bind]
    dsimp only
    rw [getbuff_frames _ _ _ _ (by simp only [List.length_drop]; omega), Outcome.ok_bind]
    dsimp only
    rw [getbuff_frames _ _ _ _ (by simp only [List.length_drop]; omega), Outcome.ok_bind]
    dsimp only
    rw [getbuff_frames _ _ _ _ (by simp only [List.length_drop]; omega), Outcome.ok_bind]
    dsimp only
    have p0 := part_frame 112 (q.take 360) 64 296
    rw [part_take _ _ _ _ (by omega)] at p0
    have pk : ∀ (p : Bytes) (n : Nat), n ≤ 360 → part (frame 112 (p.take 360)) 4 n = part p 0 n := by
      intro p n hn
      have := part_frame 112 (p.take 360) 0 n
      rw [part_take _ _ _ _ (by omega)] at this
      exact this
    rw [p0, pk _ _ (by omega), pk _ _ (by omega), pk _ _ (by omega), pk _ _ (by omega), pk _ _ (by omega), pk _ _ (by omega),
      pk _ _ (by omega)]
    simp only [List.drop_drop, part_drop]
    rw [overwrite_zero, part_length _ _ _ (by omega)]
    have o := overwrite_part q buf 64
    have o1 := o 296 360 (by omega)
    have o2 := o 656 360 (by omega)
    have o3 := o 1016 360 (by omega)
    have o4 := o 1376 360 (by omega)
    have o5 := o 1736 360 (by omega)
    have o6 := o 2096 360 (by omega)
    have o7 := o 2456 44 (by omega)
    simp only [Nat.reduceAdd] at o1 o2 o3 o4 o5 o6 o7 ⊢
    rw [o1, o2, o3, o4, o5, o6, o7, hline]
    rfl
  · rw [if_neg hf] at h1 h3
    have hid : idOf f = 48 := by cases f <;> first | rfl | exact absurd rfl hf
    have hfr : framesOf f = 4 := by cases f <;> first | rfl | exact absurd rfl hf
    have hw : width f = 1250 := by cases f <;> first | rfl | exact absurd rfl hf
    rw [hw] at h2 ⊢
    rw [hid, hfr]
    have hlen : q.length = 1440 := by rw [← hq]; simp only [List.length_append]; omega
    have hline : part q 32 1250 = s.line := by
      rw [← hq, part, List.append_assoc, drop_app h1, take_app h2]
    unfold getDataline
    rw [if_neg (by decide), if_pos rfl]
    rw [getbuff_frames _ _ _ _ (by omega), Outcome.ok_bind]
    dsimp only
    rw [getbuff_frames _ _ _ _ (by simp only [List.length_drop]; omega), Outcome.ok_bind]
    dsimp only
    rw [getbuff_frames _ _ _ _ (by simp only [List.length_drop]; omega), Outcome.ok_bind]
    dsimp only
    rw [getbuff_frames _ _ _ _ (by simp only [List.length_drop]; omega), Outcome.ok_bind]
    dsimp only
    have p0 := part_frame 48 (q.take 360) 32 328
    rw [part_take _ _ _ _ (by omega)] at p0
    have pk : ∀ (p : Bytes) (n : Nat), n ≤ 360 → part (frame 48 (p.take 360)) 4 n = part p 0 n := by
      intro p n hn
      have := part_frame 48 (p.take 360) 0 n
      rw [part_take _ _ _ _ (by omega)] at this
      exact this
    rw [p0, pk _ _ (by omega), pk _ _ (by omega), pk _ _ (by omega)]
    simp only [List.drop_drop, part_drop]
    rw [overwrite_zero, part_length _ _ _ (by omega)]
    have o := overwrite_part q buf 32
    have o1 := o 328 360 (by omega)
    have o2 := o 688 360 (by omega)
    have o3 := o 1048 202 (by omega)
    simp only [Nat.reduceAdd] at o1 o2 o3 ⊢
    rw [o1, o2, o3, hline]
    rfl

end Msat.Props
