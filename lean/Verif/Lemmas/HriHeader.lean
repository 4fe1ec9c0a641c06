import Verif.Model.HriFile
import Verif.Spec.HriFile
import Verif.Lemmas.Outcome
import Verif.Props.C35

namespace Msat.Props
open Hri HriSpec

theorem cons_of_length {l : Bytes} {n : Nat} (h : n + 1 ≤ l.length) : ∃ b t, l = b :: t ∧ n ≤ t.length := by
  cases l with
  | nil => simp at h
  | cons b t => exact ⟨b, t, rfl, by simpa using h⟩

theorem split24 {l : Bytes} (h : 24 ≤ l.length) : ∃ b0 b1 b2 b3 b4 b5 b6 b7 b8 b9 b10 b11 b12 b13 b14 b15 b16 b17 b18 b19 b20 b21 b22 b23 t, l = b0 :: b1 :: b2 :: b3 :: b4 :: b5 :: b6 :: b7 :: b8 :: b9 :: b10 :: b11 :: b12 :: b13 :: b14 :: b15 :: b16 :: b17 :: b18 :: b19 :: b20 :: b21 :: b22 :: b23 :: t := by
  obtain ⟨b0, t0, rfl, h0⟩ := cons_of_length h
  obtain ⟨b1, t1, rfl, h1⟩ := cons_of_length h0
  obtain ⟨b2, t2, rfl, h2⟩ := cons_of_length h1
  obtain ⟨b3, t3, rfl, h3⟩ := cons_of_length h2
  obtain ⟨b4, t4, rfl, h4⟩ := cons_of_length h3
  obtain ⟨b5, t5, rfl, h5⟩ := cons_of_length h4
  obtain ⟨b6, t6, rfl, h6⟩ := cons_of_length h5
  obtain ⟨b7, t7, rfl, h7⟩ := cons_of_length h6
  obtain ⟨b8, t8, rfl, h8⟩ := cons_of_length h7
  obtain ⟨b9, t9, rfl, h9⟩ := cons_of_length h8
  obtain ⟨b10, t10, rfl, h10⟩ := cons_of_length h9
  obtain ⟨b11, t11, rfl, h11⟩ := cons_of_length h10
  obtain ⟨b12, t12, rfl, h12⟩ := cons_of_length h11
  obtain ⟨b13, t13, rfl, h13⟩ := cons_of_length h12
  obtain ⟨b14, t14, rfl, h14⟩ := cons_of_length h13
  obtain ⟨b15, t15, rfl, h15⟩ := cons_of_length h14
  obtain ⟨b16, t16, rfl, h16⟩ := cons_of_length h15
  obtain ⟨b17, t17, rfl, h17⟩ := cons_of_length h16
  obtain ⟨b18, t18, rfl, h18⟩ := cons_of_length h17
  obtain ⟨b19, t19, rfl, h19⟩ := cons_of_length h18
  obtain ⟨b20, t20, rfl, h20⟩ := cons_of_length h19
  obtain ⟨b21, t21, rfl, h21⟩ := cons_of_length h20
  obtain ⟨b22, t22, rfl, h22⟩ := cons_of_length h21
  obtain ⟨b23, t23, rfl, h23⟩ := cons_of_length h22
  exact ⟨b0, b1, b2, b3, b4, b5, b6, b7, b8, b9, b10, b11, b12, b13, b14, b15, b16, b17, b18, b19, b20, b21, b22, b23, t23, rfl⟩

theorem split26 {l : Bytes} (h : 26 ≤ l.length) : ∃ b0 b1 b2 b3 b4 b5 b6 b7 b8 b9 b10 b11 b12 b13 b14 b15 b16 b17 b18 b19 b20 b21 b22 b23 b24 b25 t, l = b0 :: b1 :: b2 :: b3 :: b4 :: b5 :: b6 :: b7 :: b8 :: b9 :: b10 :: b11 :: b12 :: b13 :: b14 :: b15 :: b16 :: b17 :: b18 :: b19 :: b20 :: b21 :: b22 :: b23 :: b24 :: b25 :: t := by
  obtain ⟨b0, t0, rfl, h0⟩ := cons_of_length h
  obtain ⟨b1, t1, rfl, h1⟩ := cons_of_length h0
  obtain ⟨b2, t2, rfl, h2⟩ := cons_of_length h1
  obtain ⟨b3, t3, rfl, h3⟩ := cons_of_length h2
  obtain ⟨b4, t4, rfl, h4⟩ := cons_of_length h3
  obtain ⟨b5, t5, rfl, h5⟩ := cons_of_length h4
  obtain ⟨b6, t6, rfl, h6⟩ := cons_of_length h5
  obtain ⟨b7, t7, rfl, h7⟩ := cons_of_length h6
  obtain ⟨b8, t8, rfl, h8⟩ := cons_of_length h7
  obtain ⟨b9, t9, rfl, h9⟩ := cons_of_length h8
  obtain ⟨b10, t10, rfl, h10⟩ := cons_of_length h9
  obtain ⟨b11, t11, rfl, h11⟩ := cons_of_length h10
  obtain ⟨b12, t12, rfl, h12⟩ := cons_of_length h11
  obtain ⟨b13, t13, rfl, h13⟩ := cons_of_length h12
  obtain ⟨b14, t14, rfl, h14⟩ := cons_of_length h13
  obtain ⟨b15, t15, rfl, h15⟩ := cons_of_length h14
  obtain ⟨b16, t16, rfl, h16⟩ := cons_of_length h15
  obtain ⟨b17, t17, rfl, h17⟩ := cons_of_length h16
  obtain ⟨b18, t18, rfl, h18⟩ := cons_of_length h17
  obtain ⟨b19, t19, rfl, h19⟩ := cons_of_length h18
  obtain ⟨b20, t20, rfl, h20⟩ := cons_of_length h19
  obtain ⟨b21, t21, rfl, h21⟩ := cons_of_length h20
  obtain ⟨b22, t22, rfl, h22⟩ := cons_of_length h21
  obtain ⟨b23, t23, rfl, h23⟩ := cons_of_length h22
  obtain ⟨b24, t24, rfl, h24⟩ := cons_of_length h23
  obtain ⟨b25, t25, rfl, h25⟩ := cons_of_length h24
  exact ⟨b0, b1, b2, b3, b4, b5, b6, b7, b8, b9, b10, b11, b12, b13, b14, b15, b16, b17, b18, b19, b20, b21, b22, b23, b24, b25, t25, rfl⟩

/-- A label of 24 bytes is read, whatever follows; what it announces is what its bytes say. -/
theorem readLabel_bytes (l rest : Bytes) (h : l.length = 24) :
    ∃ lab, readLabel false l = .ok lab ∧ readLabel false (l ++ rest) = .ok lab ∧ announced lab = announces l := by
  obtain ⟨b0, b1, b2, b3, b4, b5, b6, b7, b8, b9, b10, b11, b12, b13, b14, b15, b16, b17, b18, b19, b20, b21, b22, b23, t, rfl⟩ := split24 (Nat.le_of_eq h.symm)
  exact ⟨_, rfl, rfl, rfl⟩

theorem toUshort_i2 (b0 b1 : UInt8) (rest : Bytes) :
    ∃ v, i2FromBuff false (b0 :: b1 :: rest) = .ok v ∧ toUshort v = b0.toNat * 256 + b1.toNat := by
  refine ⟨_, rfl, ?_⟩
  have h0 := b0.toNat_lt
  have h1 := b1.toNat_lt
  have hl : load false [b1, b0] = b0.toNat * 256 + b1.toNat := by simp [load]
  have hdet : detectBig false = false := by decide
  simp only [hdet, Bool.false_eq_true, if_false, hl, toUshort]
  split <;> omega

/-- Identification does not depend on what follows. -/
theorem readIdent_bytes (utcoff : Int) (s rest : Bytes) (h : s.length = 48) :
    readIdent false utcoff (s ++ rest) = readIdent false utcoff s := by
  obtain ⟨b0, b1, b2, b3, b4, b5, b6, b7, b8, b9, b10, b11, b12, b13, b14, b15, b16, b17, b18, b19, b20, b21, b22, b23, b24, b25, t, rfl⟩ := split26 (l := s) (by omega)
  rfl

theorem satelliteOf_known (b0 b1 : UInt8) (h : b0 = 212 ∨ (b0 = 0 ∧ b1 ≤ 3)) : ∃ p, satelliteOf b0 b1 = .ok p := by
  rcases h with rfl | ⟨rfl, h⟩
  · unfold satelliteOf
    rw [if_pos rfl]
    split <;> exact ⟨_, rfl⟩
  · have : b1 = 0 ∨ b1 = 1 ∨ b1 = 2 ∨ b1 = 3 := by
      have : b1.toNat ≤ 3 := h
      have h4 : b1.toNat = 0 ∨ b1.toNat = 1 ∨ b1.toNat = 2 ∨ b1.toNat = 3 := by omega
      rcases h4 with e | e | e | e
      · exact Or.inl (UInt8.toNat_inj.mp e)
      · exact Or.inr (Or.inl (UInt8.toNat_inj.mp e))
      · exact Or.inr (Or.inr (Or.inl (UInt8.toNat_inj.mp e)))
      · exact Or.inr (Or.inr (Or.inr (UInt8.toNat_inj.mp e)))
    rcases this with rfl | rfl | rfl | rfl <;> exact ⟨_, rfl⟩

theorem i2_at (s : Bytes) (n : Nat) (h : n + 2 ≤ s.length) :
    ∃ v, i2FromBuff false (s.drop n) = .ok v ∧ toUshort v = (s.getD n 0).toNat * 256 + (s.getD (n + 1) 0).toNat := by
  have e : s.drop n = s[n] :: s[n + 1] :: s.drop (n + 2) := by
    rw [List.drop_eq_getElem_cons (by omega), List.drop_eq_getElem_cons (by omega)]
  simp only [List.getD_eq_getElem?_getD]
  rw [e, List.getElem?_eq_getElem (by omega), List.getElem?_eq_getElem (by omega), Option.getD_some, Option.getD_some]
  exact toUshort_i2 _ _ _

/-- Identification bytes of a known satellite are read. -/
theorem readIdent_known (utcoff : Int) (s : Bytes) (h : s.length = 48) (hk : knownIdent s) :
    ∃ i, readIdent false utcoff s = .ok i := by
  obtain ⟨hs, _, hd⟩ := hk
  obtain ⟨v2, e2, _⟩ := i2_at s 2 (by omega)
  obtain ⟨v4, e4, u4⟩ := i2_at s 4 (by omega)
  replace u4 : toUshort v4 = (s.getD 4 0).toNat * 256 + (s.getD 5 0).toNat := u4
  obtain ⟨v6, e6, _⟩ := i2_at s 6 (by omega)
  obtain ⟨v20, e20, _⟩ := i2_at s 20 (by omega)
  obtain ⟨v22, e22, _⟩ := i2_at s 22 (by omega)
  obtain ⟨v24, e24, _⟩ := i2_at s 24 (by omega)
  obtain ⟨b0, t0, rfl, h0⟩ := cons_of_length (Nat.le_of_eq h.symm)
  obtain ⟨b1, t1, rfl, h1⟩ := cons_of_length h0
  replace hs : b0 = 212 ∨ (b0 = 0 ∧ b1 ≤ 3) := hs
  obtain ⟨p, hp⟩ := satelliteOf_known b0 b1 hs
  have key : ∃ q, monthDayOf utcoff v2 (toUshort v4) = .ok q := by
    unfold monthDayOf
    dsimp only
    rw [if_pos (by omega)]
    exact ⟨_, rfl⟩
  obtain ⟨q, hq⟩ := key
  unfold readIdent
  simp only [hp, e2, e4, e6, e20, e22, e24, hq, Outcome.ok_bind]
  exact ⟨_, rfl⟩

theorem readValue_ok (k : Kind) (b : Bytes) (h : k.size ≤ b.length) : ∃ v, readValue 4 false k b = .ok v := by
  cases k with
  | r4c6 =>
    replace h : 6 ≤ b.length := h
    obtain ⟨b0, t0, rfl, h0⟩ := cons_of_length h
    obtain ⟨b1, t1, rfl, h1⟩ := cons_of_length h0
    obtain ⟨b2, t2, rfl, h2⟩ := cons_of_length h1
    obtain ⟨b3, t3, rfl, h3⟩ := cons_of_length h2
    obtain ⟨b4, t4, rfl, h4⟩ := cons_of_length h3
    obtain ⟨b5, t5, rfl, h5⟩ := cons_of_length h4
    exact ⟨_, rfl⟩
  | r4c3 =>
    replace h : 3 ≤ b.length := h
    obtain ⟨b0, t0, rfl, h0⟩ := cons_of_length h
    obtain ⟨b1, t1, rfl, h1⟩ := cons_of_length h0
    obtain ⟨b2, t2, rfl, h2⟩ := cons_of_length h1
    exact ⟨_, rfl⟩
  | r4fc3 =>
    replace h : 3 ≤ b.length := h
    obtain ⟨b0, t0, rfl, h0⟩ := cons_of_length h
    obtain ⟨b1, t1, rfl, h1⟩ := cons_of_length h0
    obtain ⟨b2, t2, rfl, h2⟩ := cons_of_length h1
    exact ⟨_, rfl⟩
  | r4c5 =>
    replace h : 5 ≤ b.length := h
    obtain ⟨b0, t0, rfl, h0⟩ := cons_of_length h
    obtain ⟨b1, t1, rfl, h1⟩ := cons_of_length h0
    obtain ⟨b2, t2, rfl, h2⟩ := cons_of_length h1
    obtain ⟨b3, t3, rfl, h3⟩ := cons_of_length h2
    obtain ⟨b4, t4, rfl, h4⟩ := cons_of_length h3
    exact ⟨_, rfl⟩
  | r4fc5 =>
    replace h : 5 ≤ b.length := h
    obtain ⟨b0, t0, rfl, h0⟩ := cons_of_length h
    obtain ⟨b1, t1, rfl, h1⟩ := cons_of_length h0
    obtain ⟨b2, t2, rfl, h2⟩ := cons_of_length h1
    obtain ⟨b3, t3, rfl, h3⟩ := cons_of_length h2
    obtain ⟨b4, t4, rfl, h4⟩ := cons_of_length h3
    exact ⟨_, rfl⟩
  | i2c3 =>
    replace h : 3 ≤ b.length := h
    obtain ⟨b0, t0, rfl, h0⟩ := cons_of_length h
    obtain ⟨b1, t1, rfl, h1⟩ := cons_of_length h0
    obtain ⟨b2, t2, rfl, h2⟩ := cons_of_length h1
    exact ⟨_, rfl⟩
  | i2c2 =>
    replace h : 2 ≤ b.length := h
    obtain ⟨b0, t0, rfl, h0⟩ := cons_of_length h
    obtain ⟨b1, t1, rfl, h1⟩ := cons_of_length h0
    exact ⟨_, rfl⟩
  | r8 =>
    replace h : 8 ≤ b.length := h
    obtain ⟨b0, t0, rfl, h0⟩ := cons_of_length h
    obtain ⟨b1, t1, rfl, h1⟩ := cons_of_length h0
    obtain ⟨b2, t2, rfl, h2⟩ := cons_of_length h1
    obtain ⟨b3, t3, rfl, h3⟩ := cons_of_length h2
    obtain ⟨b4, t4, rfl, h4⟩ := cons_of_length h3
    obtain ⟨b5, t5, rfl, h5⟩ := cons_of_length h4
    obtain ⟨b6, t6, rfl, h6⟩ := cons_of_length h5
    obtain ⟨b7, t7, rfl, h7⟩ := cons_of_length h6
    obtain ⟨v, hv⟩ : ∃ v, r8FromBuff 4 false (b0 :: b1 :: b2 :: b3 :: b4 :: b5 :: b6 :: b7 :: t7) = .ok v := by
      unfold r8FromBuff; dsimp only; rw [if_pos rfl]; exact ⟨_, rfl⟩
    exact ⟨.bits v, by rw [readValue, hv]; rfl⟩
  | r4 =>
    replace h : 4 ≤ b.length := h
    obtain ⟨b0, t0, rfl, h0⟩ := cons_of_length h
    obtain ⟨b1, t1, rfl, h1⟩ := cons_of_length h0
    obtain ⟨b2, t2, rfl, h2⟩ := cons_of_length h1
    obtain ⟨b3, t3, rfl, h3⟩ := cons_of_length h2
    obtain ⟨v, hv⟩ : ∃ v, r4FromBuff 4 false (b0 :: b1 :: b2 :: b3 :: t3) = .ok v := by
      unfold r4FromBuff; dsimp only; rw [if_neg (by decide), if_pos (by decide)]; exact ⟨_, rfl⟩
    exact ⟨.bits v, by rw [readValue, hv]; rfl⟩
  | i4 =>
    replace h : 4 ≤ b.length := h
    obtain ⟨b0, t0, rfl, h0⟩ := cons_of_length h
    obtain ⟨b1, t1, rfl, h1⟩ := cons_of_length h0
    obtain ⟨b2, t2, rfl, h2⟩ := cons_of_length h1
    obtain ⟨b3, t3, rfl, h3⟩ := cons_of_length h2
    obtain ⟨v, hv⟩ : ∃ v, i4FromBuff false (b0 :: b1 :: b2 :: b3 :: t3) = .ok v := ⟨_, rfl⟩
    exact ⟨.int v, by rw [readValue, hv]; rfl⟩
  | i2 =>
    replace h : 2 ≤ b.length := h
    obtain ⟨b0, t0, rfl, h0⟩ := cons_of_length h
    obtain ⟨b1, t1, rfl, h1⟩ := cons_of_length h0
    obtain ⟨v, hv⟩ : ∃ v, i2FromBuff false (b0 :: b1 :: t1) = .ok v := ⟨_, rfl⟩
    exact ⟨.int v, by rw [readValue, hv]; rfl⟩
  | flag =>
    replace h : 1 ≤ b.length := h
    obtain ⟨b0, t0, rfl, h0⟩ := cons_of_length h
    exact ⟨_, rfl⟩

theorem readMembers_ok (hsi : Bytes) (ms : List (String × Kind × Nat)) (h : ∀ m ∈ ms, m.2.2 + m.2.1.size ≤ hsi.length) :
    ∃ vs, readInterp.readMembers 4 false hsi ms = .ok vs := by
  induction ms with
  | nil => exact ⟨_, rfl⟩
  | cons m ms ih =>
    obtain ⟨name, kind, off⟩ := m
    have hm : off + kind.size ≤ hsi.length := h _ List.mem_cons_self
    obtain ⟨v, hv⟩ := readValue_ok kind (hsi.drop off) (by rw [List.length_drop]; omega)
    obtain ⟨vs, hvs⟩ := ih (fun m hm => h m (List.mem_cons_of_mem _ hm))
    unfold readInterp.readMembers
    rw [hv, Outcome.ok_bind, hvs, Outcome.ok_bind]
    exact ⟨_, rfl⟩

theorem members_inside : ∀ m ∈ members, m.2.2 + m.2.1.size ≤ 1360 := by decide +kernel

/-- Interpretation data of 1360 bytes are always read (where `unsigned long` has four bytes). -/
theorem readInterp_ok (hsi : Bytes) (h : hsi.length = 1360) : ∃ v, readInterp 4 false hsi = .ok v := by
  obtain ⟨vs, hvs⟩ := readMembers_ok hsi members (by rw [h]; exact members_inside)
  unfold readInterp
  rw [hvs, Outcome.ok_bind, if_pos (by omega)]
  exact ⟨_, rfl⟩

theorem readKey_ok (b : Bytes) (h : 12 ≤ b.length) : ∃ k, readKey b = .ok k := by
  obtain ⟨b0, t0, rfl, h0⟩ := cons_of_length h
  obtain ⟨b1, t1, rfl, h1⟩ := cons_of_length h0
  obtain ⟨b2, t2, rfl, h2⟩ := cons_of_length h1
  obtain ⟨b3, t3, rfl, h3⟩ := cons_of_length h2
  obtain ⟨b4, t4, rfl, h4⟩ := cons_of_length h3
  obtain ⟨b5, t5, rfl, h5⟩ := cons_of_length h4
  obtain ⟨b6, t6, rfl, h6⟩ := cons_of_length h5
  obtain ⟨b7, t7, rfl, h7⟩ := cons_of_length h6
  obtain ⟨b8, t8, rfl, h8⟩ := cons_of_length h7
  obtain ⟨b9, t9, rfl, h9⟩ := cons_of_length h8
  obtain ⟨b10, t10, rfl, h10⟩ := cons_of_length h9
  obtain ⟨b11, t11, rfl, h11⟩ := cons_of_length h10
  unfold readKey
  dsimp only
  split <;> exact ⟨_, rfl⟩

theorem readKeysFrom_ok (n : Nat) : ∀ b : Bytes, 12 * n ≤ b.length → ∃ ks, readKeysFrom n b = .ok ks := by
  induction n with
  | zero => intro b _; exact ⟨_, rfl⟩
  | succ n ih =>
    intro b h
    obtain ⟨k, hk⟩ := readKey_ok b (by omega)
    obtain ⟨ks, hks⟩ := ih (b.drop 12) (by rw [List.length_drop]; omega)
    rw [readKeysFrom, hk, Outcome.ok_bind, hks]
    exact ⟨_, rfl⟩

end Msat.Props
