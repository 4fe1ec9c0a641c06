import Verif.Spec.HriKeys
import Verif.Lemmas.HriHeader
import Verif.Lemmas.Outcome

/-
C75: the keys of an HRI file.
-/
namespace Msat.Props
open Msat Msat.Hri Msat.HriSpec

/-- What the code makes of slot `i`. -/
def keyAt (b : Bytes) (i : Nat) : KeySlot :=
  if b.getD (12 * i) 0 ≠ 0 then
    ⟨true, slotNumber b i, 16 * (b.getD (12 * i + 2) 0).toNat + (b.getD (12 * i + 3) 0).toNat, slotKey b i⟩
  else KeySlot.zero

theorem readKey_at (b : Bytes) (h : 12 ≤ b.length) : readKey b = .ok (keyAt b 0) := by
  obtain ⟨b0, t0, rfl, h0⟩ := cons_of_length h
  obtain ⟨b1, t1, rfl, h1⟩ := cons_of_length h0
  obtain ⟨b2, t2, rfl, h2⟩ := cons_of_length h1
  obtain ⟨b3, t3, rfl, h3⟩ := cons_of_length h2
  obtain ⟨b4, t4, rfl, h4⟩ := cons_of_length h3
  obtain ⟨b5, t5, rfl, h5⟩ := cons_of_length h4
  obtain ⟨b6, t6, rfl, h6⟩ := cons_of_length h5
  obtain ⟨b7, t7, rfl, h7⟩ := cons_of_length h6
  obtain ⟨b8, t8, rfl, h8⟩ := cons_of_length h7
  obtain ⟨b9, t9, rfl, h9⟩ := cons_of_length h8
  obtain ⟨b10, t10, rfl, h10⟩ := cons_of_length h9
  obtain ⟨b11, t11, rfl, h11⟩ := cons_of_length h10
  unfold readKey keyAt
  simp only [Nat.mul_zero, List.getD_cons_zero]
  split <;> rfl

theorem keyAt_drop (b : Bytes) (i : Nat) : keyAt (b.drop 12) i = keyAt b (i + 1) := by
  unfold keyAt slotNumber slotKey
  simp only [List.getD_eq_getElem?_getD, List.getElem?_drop, List.drop_drop]
  simp only [show 12 + 12 * i = 12 * (i + 1) by omega, show ∀ k, 12 + (12 * i + k) = 12 * (i + 1) + k from fun k => by omega]

theorem readKeysFrom_map (n : Nat) : ∀ b : Bytes, 12 * n ≤ b.length → readKeysFrom n b = .ok ((List.range n).map (keyAt b)) := by
  induction n with
  | zero => intro b _; rfl
  | succ n ih =>
    intro b h
    rw [readKeysFrom, readKey_at b (by omega), Outcome.ok_bind, ih (b.drop 12) (by rw [List.length_drop]; omega), Outcome.ok_bind,
      List.range_succ_eq_map, List.map_cons, List.map_map]
    show Outcome.ok _ = _
    congr 2
    apply List.map_congr_left
    intro i _
    exact keyAt_drop b i

theorem find_range {p : Nat → Bool} : ∀ (n i : Nat), i < n → p i = true → (∀ j < i, p j = false) → (List.range n).find? p = some i := by
  intro n i hi hp hj
  rw [List.find?_eq_some_iff_append]
  refine ⟨hp, List.range i, (List.range' (i + 1) (n - (i + 1))), ?_, fun a ha => by rw [hj a (List.mem_range.mp ha)]; rfl⟩
  rw [List.range_eq_range', List.range_eq_range', ← List.range'_succ]
  have := @List.range'_append_1 0 i (n - (i + 1) + 1)
  rw [Nat.zero_add, show i + (n - (i + 1) + 1) = n by omega] at this
  exact this.symm

/-- When the numbers of the stations are below 256, `has_keys` says whether a station has keys, and `get_key` gives the first key with the
number asked for, or none.  Missing for C75: stations from 256 on (see `C75_violated_station`). -/
theorem C75_keys_partial (b : Bytes) (hb : b.length = 1440) (hst : ∀ i < 120, slotUsed b i → slotStation b i < 256) :
    ∃ ks, readKeys b = .ok ks ∧ ∀ station number : Nat,
      (hasKeys ks station = true ↔ ∃ i < 120, slotUsed b i ∧ slotStation b i = station) ∧
      (∀ i < 120, slotIs b station number i → (∀ j < i, ¬ slotIs b station number j) →
        getKey ks station number = ⟨true, number, station, slotKey b i⟩) ∧
      ((∀ i < 120, ¬ slotIs b station number i) → (getKey ks station number).usage = false) := by
  refine ⟨_, readKeysFrom_map 120 b (by omega), fun station number => ?_⟩
  have hk : ∀ i < 120, slotUsed b i → keyAt b i = ⟨true, slotNumber b i, slotStation b i, slotKey b i⟩ := by
    intro i hi hu
    have := hst i hi hu
    unfold slotStation at this ⊢
    unfold keyAt
    rw [if_pos (show b.getD (12 * i) 0 ≠ 0 from hu)]
    congr 1
    omega
  have hz : ∀ i, ¬ slotUsed b i → keyAt b i = KeySlot.zero := by
    intro i hu
    unfold keyAt
    rw [if_neg (show ¬ b.getD (12 * i) 0 ≠ 0 from hu)]
  have hp : ∀ i < 120, (((keyAt b i).usage && ((keyAt b i).stationNumber : Int) == station && ((keyAt b i).keyNumber : Int) == number) = true ↔
      slotIs b station number i) := by
    intro i hi
    by_cases hu : slotUsed b i
    · rw [hk i hi hu]
      simp only [Bool.true_and, Bool.and_eq_true, beq_iff_eq, slotIs, hu, true_and]
      constructor <;> intro h <;> constructor <;> omega
    · rw [hz i hu]
      simp [KeySlot.zero, slotIs, hu]
  refine ⟨?_, ?_, ?_⟩
  · unfold hasKeys
    rw [List.any_eq_true]
    constructor
    · rintro ⟨k, hm, h⟩
      obtain ⟨i, hi, rfl⟩ := List.mem_map.mp hm
      have hi := List.mem_range.mp hi
      by_cases hu : slotUsed b i
      · rw [hk i hi hu] at h
        simp only [Bool.true_and, beq_iff_eq] at h
        exact ⟨i, hi, hu, by omega⟩
      · rw [hz i hu] at h
        simp [KeySlot.zero] at h
    · rintro ⟨i, hi, hu, h⟩
      refine ⟨keyAt b i, List.mem_map.mpr ⟨i, List.mem_range.mpr hi, rfl⟩, ?_⟩
      rw [hk i hi hu]
      simp [h]
  · intro i hi his hno
    unfold getKey
    rw [List.find?_map, find_range 120 i hi ((hp i hi).mpr his) (fun j hj => by
      have := mt (hp j (by omega)).mp (hno j hj)
      exact Bool.eq_false_iff.mpr this)]
    show keyAt b i = _
    rw [hk i hi his.1, his.2.1, his.2.2]
  · intro hno
    unfold getKey
    rw [List.find?_eq_none.mpr]
    · rfl
    · intro k hm
      obtain ⟨i, hi, rfl⟩ := List.mem_map.mp hm
      have hi := List.mem_range.mp hi
      exact mt (hp i hi).mp (hno i hi)

/-- A slot with key 2 of station 5, the others without. -/
example : ∃ b : Bytes, b.length = 1440 ∧ (∀ i < 120, slotUsed b i → slotStation b i < 256) ∧ slotIs b 5 2 0 ∧
    slotKey b 0 = [1, 2, 3, 4, 5, 6, 7, 8] := by
  refine ⟨[1, 2, 0, 5, 1, 2, 3, 4, 5, 6, 7, 8] ++ List.replicate 1428 0, ?_, ?_, by unfold slotIs slotUsed; decide, by rfl⟩
  · rw [List.length_append, List.length_replicate]; rfl
  · intro i hi hu
    match i, hu with
    | 0, _ => decide
    | i + 1, hu =>
      exfalso
      apply hu
      rw [List.getD_eq_getElem?_getD, List.getElem?_append_right (by simp; omega)]
      rw [List.getElem?_replicate]
      split <;> rfl

/-- The number of a station is not read as two bytes: from 256 on it is always wrong, so that the keys of station 256 are given to station
16. -/
theorem C75_violated_station (b : Bytes) (hb : b.length = 1440) (i : Nat) (hi : i < 120) (hu : slotUsed b i) (hs : 256 ≤ slotStation b i) :
    ∃ ks k, readKeys b = .ok ks ∧ ks[i]? = some k ∧ k.usage = true ∧ k.stationNumber ≠ slotStation b i ∧
      hasKeys ks (slotStation b i - 240 * (b.getD (12 * i + 2) 0).toNat : Nat) = true := by
  refine ⟨_, keyAt b i, readKeysFrom_map 120 b (by omega), ?_, ?_, ?_, ?_⟩
  · rw [List.getElem?_map, List.getElem?_range hi]; rfl
  · unfold keyAt; rw [if_pos (show b.getD (12 * i) 0 ≠ 0 from hu)]
  · unfold keyAt; rw [if_pos (show b.getD (12 * i) 0 ≠ 0 from hu)]
    have := (b.getD (12 * i + 3) 0).toNat_lt
    unfold slotStation at hs ⊢
    show 16 * _ + _ ≠ _
    omega
  · unfold hasKeys
    rw [List.any_eq_true]
    refine ⟨keyAt b i, List.mem_map.mpr ⟨i, List.mem_range.mpr hi, rfl⟩, ?_⟩
    unfold keyAt; rw [if_pos (show b.getD (12 * i) 0 ≠ 0 from hu)]
    unfold slotStation
    simp only [Bool.true_and, beq_iff_eq]
    omega

/-- Station 256. -/
example : slotUsed [1, 0, 1, 0] 0 ∧ slotStation [1, 0, 1, 0] 0 = 256 ∧ 256 - 240 * ([1, 0, 1, 0].getD (12 * 0 + 2) 0) = 16 := by
  unfold slotUsed; decide

end Msat.Props
