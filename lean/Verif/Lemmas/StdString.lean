import Verif.Model.StdString

namespace Msat.StdString

theorem findIdx?_sep {a post : Bytes} {c : UInt8} (h : c ∉ a) :
    (a ++ c :: post).findIdx? (· == c) = some a.length := by
  induction a with
  | nil => simp [List.findIdx?_cons]
  | cons x a ih =>
    have hx : (x == c) = false := by
      rw [beq_eq_false_iff_ne]; intro e; exact h (by simp [e])
    simp only [List.cons_append, List.findIdx?_cons, hx, ih (fun m => h (by simp [m]))]
    simp

theorem findIdx?_none {a : Bytes} {c : UInt8} (h : c ∉ a) : a.findIdx? (· == c) = none := by
  rw [List.findIdx?_eq_none_iff]
  intro x hx
  rw [beq_eq_false_iff_ne]; intro e; exact h (e ▸ hx)

theorem find_sep {s pre a post : Bytes} {c : UInt8} {n : Nat} (e : s = pre ++ (a ++ c :: post))
    (hn : n = pre.length) (h : c ∉ a) : find s c n = some (pre.length + a.length) := by
  subst e hn
  simp only [find, List.drop_left, findIdx?_sep h, Option.map_some]

theorem find_none {s pre a : Bytes} {c : UInt8} {n : Nat} (e : s = pre ++ a) (hn : n = pre.length)
    (h : c ∉ a) : find s c n = none := by
  subst e hn
  simp only [find, List.drop_left, findIdx?_none h, Option.map_none]

theorem rfind_sep {s pre post : Bytes} {c : UInt8} (e : s = pre ++ c :: post) (h : c ∉ post) :
    rfind s c = some pre.length := by
  subst e
  have : (pre ++ c :: post).reverse = post.reverse ++ c :: pre.reverse := by simp
  simp only [rfind, this, findIdx?_sep (show c ∉ post.reverse by simpa using h), Option.map_some,
    List.length_reverse, List.length_append, List.length_cons]
  congr 1; omega

theorem rfind_none {s : Bytes} {c : UInt8} (h : c ∉ s) : rfind s c = none := by
  simp only [rfind, findIdx?_none (show c ∉ s.reverse by simpa using h), Option.map_none]

/-- Conversely: where `find` finds a character. -/
theorem find_some {s : Bytes} {c : UInt8} {pos i : Nat} (h : find s c pos = some i) :
    pos ≤ i ∧ i < s.length ∧ s[i]? = some c ∧ c ∉ (s.drop pos).take (i - pos) := by
  simp only [find, Option.map_eq_some_iff] at h
  obtain ⟨j, hj, rfl⟩ := h
  rw [List.findIdx?_eq_some_iff_getElem] at hj
  obtain ⟨hl, hp, hb⟩ := hj
  rw [List.length_drop] at hl
  refine ⟨by omega, by omega, ?_, ?_⟩
  · rw [List.getElem_drop, beq_iff_eq] at hp
    rw [List.getElem?_eq_getElem (by omega), hp]
  · rw [show pos + j - pos = j by omega]
    intro hm
    obtain ⟨k, hk, e⟩ := List.getElem_of_mem hm
    have hk' : k < j := by
      rw [List.length_take] at hk; omega
    have := hb k hk'
    rw [List.getElem_take] at e
    simp [e] at this

theorem find_eq_none {s : Bytes} {c : UInt8} {pos : Nat} (h : find s c pos = none) :
    c ∉ s.drop pos := by
  simp only [find, Option.map_eq_none_iff, List.findIdx?_eq_none_iff] at h
  intro hm
  simpa using h c hm

end Msat.StdString
