import Verif.Spec.Owners
import Verif.Lemmas.Sys

/-
Ownership: every resource in a set is held by exactly one object.
-/
namespace Msat.Owners
open Sys OwnersSpec

/-- What is held is in the set, by one object only; if `full`, all of the set is held. -/
structure Own (objs : Nat → Option (Option Nat)) (R : Nat → Prop) (full : Prop) : Prop where
  sound : ∀ o r, Holds objs o r → R r
  inj : ∀ o o' r, Holds objs o r → Holds objs o' r → o = o'
  surj : full → ∀ r, R r → ∃ o, Holds objs o r

theorem holds_upd (objs : Nat → Option (Option Nat)) (o x r : Nat) (v : Option (Option Nat)) :
    Holds (upd objs o v) x r ↔ if x = o then v = some (some r) else Holds objs x r := by
  unfold Holds upd
  split <;> rfl

theorem Own.weaken {objs R f g} (h : Own objs R f) (hfg : g → f) : Own objs R g :=
  ⟨h.sound, h.inj, fun hg => h.surj (hfg hg)⟩

theorem Own.congr {objs R R' f} (h : Own objs R f) (hR : ∀ r, R r ↔ R' r) : Own objs R' f :=
  ⟨fun o r q => (hR r).1 (h.sound o r q), h.inj, fun hf r q => h.surj hf r ((hR r).2 q)⟩

theorem Own.make {objs R f} (h : Own objs R f) {o r : Nat} (ho : ∀ x, ¬ Holds objs o x) (hr : ¬ R r) :
    Own (upd objs o (some (some r))) (fun x => R x ∨ x = r) f := by
  refine ⟨?_, ?_, ?_⟩
  · intro x y q
    rw [holds_upd] at q
    split at q
    · right; simpa using q.symm
    · exact Or.inl (h.sound x y q)
  · intro x x' y q q'
    rw [holds_upd] at q q'
    split at q
    · split at q'
      · omega
      · have : r = y := by simpa using q
        rw [← this] at q'; exact absurd (h.sound _ _ q') hr
    · split at q'
      · have : r = y := by simpa using q'
        rw [← this] at q; exact absurd (h.sound _ _ q) hr
      · exact h.inj _ _ _ q q'
  · intro hf y q
    rcases q with q | q
    · obtain ⟨x, hx⟩ := h.surj hf y q
      refine ⟨x, ?_⟩
      rw [holds_upd, if_neg (fun (e : x = o) => ho y (e ▸ hx))]
      exact hx
    · exact ⟨o, by rw [holds_upd, if_pos rfl, q]⟩

theorem Own.drop {objs R f} (h : Own objs R f) {o : Nat} {v : Option (Option Nat)} (ho : ∀ x, ¬ Holds objs o x)
    (hv : ∀ x, v ≠ some (some x)) : Own (upd objs o v) R f := by
  have e : ∀ x y, Holds (upd objs o v) x y ↔ Holds objs x y := by
    intro x y
    rw [holds_upd]
    split
    · rename_i hx
      rw [hx]
      exact ⟨fun q => absurd q (hv y), fun q => absurd q (ho y)⟩
    · rfl
  refine ⟨fun x y q => h.sound x y ((e x y).1 q), fun x x' y q q' => h.inj x x' y ((e x y).1 q) ((e x' y).1 q'),
    fun hf y q => ?_⟩
  obtain ⟨x, hx⟩ := h.surj hf y q
  exact ⟨x, (e x y).2 hx⟩

theorem Own.release {objs R f} (h : Own objs R f) {o r : Nat} {v : Option (Option Nat)} (ho : Holds objs o r)
    (hv : ∀ x, v ≠ some (some x)) : Own (upd objs o v) (fun x => R x ∧ x ≠ r) f := by
  refine ⟨?_, ?_, ?_⟩
  · intro x y q
    rw [holds_upd] at q
    split at q
    · exact absurd q (hv y)
    · refine ⟨h.sound x y q, ?_⟩
      rintro rfl
      exact absurd (h.inj _ _ _ q ho) (by assumption)
  · intro x x' y q q'
    rw [holds_upd] at q q'
    split at q
    · exact absurd q (hv y)
    · split at q'
      · exact absurd q' (hv y)
      · exact h.inj _ _ _ q q'
  · rintro hf y ⟨q, hne⟩
    obtain ⟨x, hx⟩ := h.surj hf y q
    refine ⟨x, ?_⟩
    rw [holds_upd, if_neg]
    · exact hx
    · rintro rfl
      unfold Holds at hx ho
      rw [hx] at ho
      exact hne (by simpa using ho)

theorem Own.leak {objs R} {f : Prop} (h : Own objs R f) {o r : Nat} {v : Option (Option Nat)} (_ho : Holds objs o r)
    (hv : ∀ x, v ≠ some (some x)) (hf : ¬ f) : Own (upd objs o v) R f := by
  refine ⟨?_, ?_, fun q => absurd q hf⟩
  · intro x y q
    rw [holds_upd] at q
    split at q
    · exact absurd q (hv y)
    · exact h.sound x y q
  · intro x x' y q q'
    rw [holds_upd] at q q'
    split at q
    · exact absurd q (hv y)
    · split at q'
      · exact absurd q' (hv y)
      · exact h.inj _ _ _ q q'

theorem Own.transfer {objs R f} (h : Own objs R f) {o src : Nat} {addr : Option Nat} (hne : o ≠ src)
    (ho : ∀ x, ¬ Holds objs o x) (hs : objs src = some addr) :
    Own (upd (upd objs o (some addr)) src (some none)) R f := by
  have e : ∀ x y, Holds (upd (upd objs o (some addr)) src (some none)) x y ↔
      (x = o ∧ Holds objs src y) ∨ (x ≠ o ∧ x ≠ src ∧ Holds objs x y) := by
    intro x y
    rw [holds_upd, holds_upd]
    by_cases h1 : x = src
    · rw [if_pos h1]
      have : x ≠ o := by omega
      simp [h1]
      intro q; omega
    · rw [if_neg h1]
      by_cases h2 : x = o
      · rw [if_pos h2]
        unfold Holds
        rw [hs]
        simp [h2]
      · rw [if_neg h2]; simp [h1, h2]
  refine ⟨?_, ?_, ?_⟩
  · intro x y q
    rcases (e x y).1 q with q | q
    · exact h.sound _ _ q.2
    · exact h.sound _ _ q.2.2
  · intro x x' y q q'
    rcases (e x y).1 q with ⟨q1, q2⟩ | ⟨q1, q2, q3⟩
    · rcases (e x' y).1 q' with ⟨p1, p2⟩ | ⟨p1, p2, p3⟩
      · omega
      · exact absurd (h.inj _ _ _ p3 q2) p2
    · rcases (e x' y).1 q' with ⟨p1, p2⟩ | ⟨p1, p2, p3⟩
      · exact absurd (h.inj _ _ _ q3 p2) q2
      · exact h.inj _ _ _ q3 p3
  · intro hf y q
    obtain ⟨x, hx⟩ := h.surj hf y q
    by_cases h1 : x = src
    · exact ⟨o, (e o y).2 (Or.inl ⟨rfl, h1 ▸ hx⟩)⟩
    · have h2 : x ≠ o := by rintro rfl; exact ho y hx
      exact ⟨x, (e x y).2 (Or.inr ⟨h2, h1, hx⟩)⟩

end Msat.Owners
