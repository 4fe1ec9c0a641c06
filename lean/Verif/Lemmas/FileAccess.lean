import Verif.Lemmas.StdString
import Verif.Model.FileAccess
import Verif.Spec.FileAccess

namespace Msat.Xrit
open StdString XritSpec

theorem field_at {s pre a post : Bytes} {c : UInt8} {n : Nat} (e : s = pre ++ (a ++ c :: post))
    (hn : n = pre.length) (h : c ∉ a) : field s c n = .ok (a, (pre ++ (a ++ [c])).length) := by
  simp only [field, find_sep e hn h]
  subst e hn
  simp [substr, Nat.add_assoc]

theorem splitDirectory_at {s d name : Bytes} (e : s = d ++ slash :: name) (h : slash ∉ name)
    (hd : d ≠ []) : splitDirectory s = (d, (d ++ [slash]).length) := by
  simp only [splitDirectory, rfind_sep e h]
  subst e
  simp [substr, hd]

theorem splitDirectory_none {s : Bytes} (h : slash ∉ s) : splitDirectory s = (str ".", 0) := by
  simp only [splitDirectory, rfind_none h]

theorem exists_last {s : Bytes} {c : UInt8} (h : c ∈ s) : ∃ a b, s = a ++ c :: b ∧ c ∉ b := by
  obtain ⟨a, b, e, hb⟩ := List.eq_append_cons_of_mem (List.mem_reverse.2 h)
  refine ⟨b.reverse, a.reverse, ?_, by simpa using hb⟩
  have := congrArg List.reverse e
  simpa using this

/-- The directory is what comes before the last slash. -/
theorem splitDirectory_spec (f : Bytes) : ∃ pre name, f = pre ++ name ∧ slash ∉ name ∧
    (splitDirectory f).2 = pre.length ∧
    ((pre = [] ∧ (splitDirectory f).1 = str ".") ∨ (pre = str "/" ∧ (splitDirectory f).1 = str "/") ∨
      (pre = (splitDirectory f).1 ++ str "/" ∧ (splitDirectory f).1 ≠ [])) := by
  by_cases h : slash ∈ f
  · obtain ⟨a, b, e, hb⟩ := exists_last h
    refine ⟨a ++ [slash], b, by rw [e]; simp, hb, ?_⟩
    by_cases ha : a = []
    · subst ha
      simp only [splitDirectory, rfind_sep e hb]
      exact ⟨rfl, .inr (.inl ⟨rfl, rfl⟩)⟩
    · rw [splitDirectory_at e hb ha]
      exact ⟨rfl, .inr (.inr ⟨rfl, ha⟩)⟩
  · rw [splitDirectory_none h]
    exact ⟨[], f, rfl, h, rfl, .inl ⟨rfl, rfl⟩⟩

theorem deunderscorePos_padded (x : Bytes) (k : Nat) (hx : x ≠ [])
    (hl : x.length = 1 ∨ x.getLast? ≠ some under) : ∀ j ≤ k,
    deunderscorePos (x ++ List.replicate k under) (x.length - 1 + j) = x.length - 1 := by
  intro j
  have hpos : 0 < x.length := List.length_pos_iff.2 hx
  induction j with
  | zero =>
    intro _
    rw [Nat.add_zero]
    cases hx1 : x.length - 1 with
    | zero => rfl
    | succ p =>
      rw [deunderscorePos, if_neg]
      rw [List.getElem?_append_left (by omega), ← hx1, ← List.getLast?_eq_getElem?]
      rcases hl with hl | hl
      · omega
      · exact hl
  | succ j ih =>
    intro hj
    rw [show x.length - 1 + (j + 1) = (x.length - 1 + j) + 1 by omega, deunderscorePos, if_pos, ih (by omega)]
    rw [List.getElem?_append_right (by omega), List.getElem?_replicate, if_pos (by omega)]

theorem deunderscore_padded (x : Bytes) (k : Nat) (hx : x ≠ [])
    (hl : x.length = 1 ∨ x.getLast? ≠ some under) : deunderscore (padded x k) = .ok x := by
  have hpos : 0 < x.length := List.length_pos_iff.2 hx
  have := deunderscorePos_padded x k hx hl k (Nat.le_refl k)
  rw [deunderscore, if_neg (by simp [padded, hx])]
  refine congrArg Outcome.ok ?_
  have e : (padded x k).length - 1 = x.length - 1 + k := by simp [padded]; omega
  rw [e, padded, show (95 : UInt8) = under from rfl, this, substr]
  rw [List.drop_zero, show x.length - 1 + 1 = x.length by omega]
  simp

end Msat.Xrit
