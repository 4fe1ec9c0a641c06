import Verif.Model.OpenMTP
import Verif.Spec.OpenMTP
import Verif.Lemmas.Machine
import Mathlib.Tactic.Ring

/-
Reading OpenMTP files.
-/
namespace Msat.Mtp
open Msat Spec MtpSpec

theorem readAt_ok {buf file : Bytes} {off : Nat} {n : Nat} (h1 : off + n ≤ buf.length) (h2 : n ≤ file.length) :
    readAt buf off n file = .ok (buf.take off ++ file.take n ++ buf.drop (off + n), file.drop n) := by
  unfold readAt
  rw [if_neg (by omega), if_neg (by rw [Int.toNat_natCast]; omega), if_neg (by rw [Int.toNat_natCast]; omega),
    Int.toNat_natCast]

theorem readAt_short {buf file : Bytes} {off : Nat} {n : Nat} (h1 : off + n ≤ buf.length) (h2 : file.length < n) :
    readAt buf off n file = .terminate := by
  unfold readAt
  rw [if_neg (by omega), if_neg (by rw [Int.toNat_natCast]; omega), if_pos (by rw [Int.toNat_natCast]; omega)]

theorem stored_length {buf file : Bytes} {off n : Nat} (h1 : off + n ≤ buf.length) (h2 : n ≤ file.length) :
    (buf.take off ++ file.take n ++ buf.drop (off + n)).length = buf.length := by
  simp only [List.length_append, List.length_take, List.length_drop]
  omega

theorem stored_before {buf file : Bytes} {off n i : Nat} (h1 : off + n ≤ buf.length) (hi : i < off) :
    (buf.take off ++ file.take n ++ buf.drop (off + n))[i]? = buf[i]? := by
  rw [List.append_assoc, List.getElem?_append_left (by rw [List.length_take]; omega), List.getElem?_take_of_lt hi]

theorem stored_at {buf file : Bytes} {off n i : Nat} (h1 : off + n ≤ buf.length) (h2 : n ≤ file.length) (hi : i < n) :
    (buf.take off ++ file.take n ++ buf.drop (off + n))[off + i]? = file[i]? := by
  rw [List.append_assoc, List.getElem?_append_right (by rw [List.length_take]; omega),
    List.length_take, Nat.min_eq_left (by omega), Nat.add_sub_cancel_left,
    List.getElem?_append_left (by rw [List.length_take]; omega), List.getElem?_take_of_lt hi]

theorem getD_eq {l : Bytes} {i : Nat} : l.getD i 0 = (l[i]?).getD 0 := by simp [List.getD]

/-- A field only depends on the bytes it is made of. -/
theorem int4_congr {a b : Bytes} {i j : Nat} (h : ∀ k < 4, a[i + k]? = b[j + k]?) : int4 a i = int4 b j := by
  unfold int4
  rw [getD_eq, getD_eq, getD_eq, getD_eq, getD_eq, getD_eq, getD_eq, getD_eq]
  rw [← Nat.add_zero i, ← Nat.add_zero j, h 0 (by omega)]
  simp only [Nat.add_zero]
  rw [h 1 (by omega), h 2 (by omega), h 3 (by omega)]

theorem take_four {l : Bytes} {i : Nat} (h : i + 4 ≤ l.length) :
    (l.drop i).take 4 = [l.getD i 0, l.getD (i + 1) 0, l.getD (i + 2) 0, l.getD (i + 3) 0] := by
  have e : ∀ k, i + k < l.length → l.drop (i + k) = l.getD (i + k) 0 :: l.drop (i + k + 1) := by
    intro k hk
    rw [List.drop_eq_getElem_cons hk, getD_eq, List.getElem?_eq_getElem hk]
    rfl
  have e0 := e 0 (by omega)
  rw [Nat.add_zero] at e0
  rw [e0, e 1 (by omega), e 2 (by omega), e 3 (by omega)]
  rfl

theorem int4_field {l : Bytes} {i : Nat} (h : i + 4 ≤ l.length) : int4 l i = field l i := by
  unfold int4 field
  rw [take_four h]
  have := getI4_eq .little (l.getD i 0) (l.getD (i + 1) 0) (l.getD (i + 2) 0) (l.getD (i + 3) 0)
  rw [chk_little] at this
  exact this

/-! ### The binary header -/

/-- Length of the third section. -/
def third (file : Bytes) : Nat := if isVisibleComposite file then 185188 else 136704

theorem zeros_length : (List.replicate 192999 (0 : UInt8)).length = 192999 := List.length_replicate

theorem binaryRead_spec (file : Bytes) :
    (5175 + 2636 + third file ≤ file.length → ∃ header, binaryRead file = .ok (header, file.drop (5175 + 2636 + third file)) ∧
      header.length = 192999 ∧ ∀ i < 5175, header[i]? = file[i]?) ∧
    (file.length < 5175 + 2636 + third file → binaryRead file = .terminate) := by
  have z := zeros_length
  generalize hz : List.replicate 192999 (0 : UInt8) = zeros at z
  have ht : third file = 185188 ∨ third file = 136704 := by
    unfold third
    split
    · exact .inl rfl
    · exact .inr rfl
  have hd : binaryRead file = (do
      let (header, file) ← readAt zeros 0 (5175 : Nat) file
      let (header, file) ← secondSection header file
      thirdSection header file) := by
    unfold binaryRead
    rw [hz]
    rfl
  rw [hd]
  by_cases h1 : file.length < 5175
  · refine ⟨fun h => absurd h (by omega), fun _ => ?_⟩
    rw [readAt_short (by omega) h1, Outcome.terminate_bind]
  rw [readAt_ok (by omega) (by omega), Outcome.ok_bind]
  have l1 : (zeros.take 0 ++ file.take 5175 ++ zeros.drop (0 + 5175)).length = 192999 := by
    rw [stored_length (by omega) (by omega), z]
  have e1 : ∀ i < 5175, (zeros.take 0 ++ file.take 5175 ++ zeros.drop (0 + 5175))[i]? = file[i]? := by
    intro i hi
    have := stored_at (buf := zeros) (file := file) (off := 0) (n := 5175) (i := i) (by omega) (by omega) hi
    rw [Nat.zero_add i] at this
    exact this
  generalize zeros.take 0 ++ file.take 5175 ++ zeros.drop (0 + 5175) = H1 at l1 e1
  dsimp only
  have hdrop : (file.drop 5175).drop 2636 = file.drop 7811 := by rw [List.drop_drop]
  have hc : ∀ H2 : Bytes, (∀ i < 5175, H2[i]? = file[i]?) → isVisibleComposite H2 = isVisibleComposite file := by
    intro H2 h
    unfold isVisibleComposite
    rw [int4_congr (a := H2) (b := file) (i := 40) (j := 40) (fun k hk => h (40 + k) (by omega))]
  by_cases hr : isRectified H1 = true ∨ 2636 ≤ (file.drop 5175).length
  · have second : ∃ H2, secondSection H1 (file.drop 5175) = .ok (H2, file.drop 7811) ∧ H2.length = 192999 ∧
        ∀ i < 5175, H2[i]? = file[i]? := by
      unfold secondSection
      by_cases h : isRectified H1 = true
      · exact ⟨H1, by rw [if_pos h, hdrop], l1, e1⟩
      · have hr := hr.resolve_left h
        refine ⟨H1.take 5175 ++ (file.drop 5175).take 2636 ++ H1.drop (5175 + 2636), ?_, ?_, ?_⟩
        · rw [if_neg h, ← hdrop]
          exact readAt_ok (n := 2636) (by omega) hr
        · rw [stored_length (by omega) hr, l1]
        · intro i hi
          rw [stored_before (by omega) hi, e1 i hi]
    obtain ⟨H2, e2, l2, p2⟩ := second
    rw [e2, Outcome.ok_bind]
    dsimp only
    have key : thirdSection H2 (file.drop 7811) = readAt H2 7811 (third file : Nat) (file.drop 7811) := by
      unfold thirdSection third
      rw [hc H2 p2]
      split <;> rfl
    rw [key]
    refine ⟨fun h => ?_, fun h => ?_⟩
    · have hl : third file ≤ (file.drop 7811).length := by rw [List.length_drop]; omega
      refine ⟨H2.take 7811 ++ (file.drop 7811).take (third file) ++ H2.drop (7811 + third file), ?_, ?_, ?_⟩
      · rw [readAt_ok (by omega) hl, List.drop_drop]
      · rw [stored_length (by omega) hl, l2]
      · intro i hi
        rw [stored_before (by omega) (by omega), p2 i hi]
    · rw [readAt_short (by omega) (by rw [List.length_drop]; omega)]
  · have h2 : file.length < 7811 := by
      have : ¬ 2636 ≤ (file.drop 5175).length := fun h => hr (.inr h)
      rw [List.length_drop] at this
      omega
    refine ⟨fun h => absurd h (by omega), fun _ => ?_⟩
    have : secondSection H1 (file.drop 5175) = .terminate := by
      unfold secondSection
      rw [if_neg (fun h => hr (.inl h))]
      exact readAt_short (n := 2636) (by omega) (by rw [List.length_drop]; omega)
    rw [this, Outcome.terminate_bind]

/-! ### Lines -/

theorem readLines_spec (np : Nat) (hnp : np ≤ 5000) : ∀ (n i : Nat) (image line file : Bytes),
    (i + n) * np ≤ image.length → line.length = 5032 →
    (n * (np + 32) ≤ file.length → ∃ image' line', readLines np n i image line file =
        .ok (image', line', file.drop (n * (np + 32))) ∧ image'.length = image.length ∧ line'.length = 5032 ∧
        (∀ x < i * np, image'[x]? = image[x]?) ∧
        ∀ k < n, ∀ j < np, image'[(i + k) * np + j]? = file[k * (np + 32) + 32 + j]?) ∧
    (file.length < n * (np + 32) → readLines np n i image line file = .terminate) := by
  intro n
  induction n with
  | zero =>
    intro i image line file _ hl
    refine ⟨fun _ => ⟨image, line, ?_, rfl, hl, fun _ _ => rfl, fun k hk => absurd hk (by omega)⟩, fun h => absurd h (by omega)⟩
    rw [Nat.zero_mul, List.drop_zero]
    rfl
  | succ n ih =>
    intro i image line file hi hl
    have hm : (n + 1) * (np + 32) = n * (np + 32) + (np + 32) := by ring
    have hm2 : (i + (n + 1)) * np = i * np + np + n * np := by ring
    have hm3 : (i + 1) * np = i * np + np := by ring
    have hm4 : (i + 1 + n) * np = i * np + np + n * np := by ring
    have he : readLines np (n + 1) i image line file = (do
        let (line, file) ← readAt line 0 (np + 32 : Nat) file
        let image ← copyLine image line i np
        readLines np n (i + 1) image line file) := by
      show (lineRead line np file >>= _) = _
      unfold lineRead
      rw [if_neg (by omega)]
      rfl
    rw [he]
    by_cases h0 : file.length < np + 32
    · refine ⟨fun h => absurd h (by omega), fun _ => ?_⟩
      rw [readAt_short (by omega) h0, Outcome.terminate_bind]
    rw [readAt_ok (by omega) (by omega), Outcome.ok_bind]
    have l1 := stored_length (buf := line) (file := file) (off := 0) (n := np + 32) (by omega) (by omega)
    have a1 : ∀ x < np + 32, (line.take 0 ++ file.take (np + 32) ++ line.drop (0 + (np + 32)))[x]? = file[x]? := by
      intro x hx
      have := stored_at (buf := line) (file := file) (off := 0) (n := np + 32) (i := x) (by omega) (by omega) hx
      rw [Nat.zero_add x] at this
      exact this
    generalize line.take 0 ++ file.take (np + 32) ++ line.drop (0 + (np + 32)) = line1 at l1 a1
    dsimp only
    have hc : copyLine image line1 i np =
        .ok (image.take (i * np) ++ (line1.drop 32).take np ++ image.drop (i * np + np)) := by
      unfold copyLine
      rw [if_neg (by omega), if_neg (by rw [Int.toNat_natCast]; omega), Int.toNat_natCast, hm3]
    rw [hc, Outcome.ok_bind]
    have hl32 : np ≤ (line1.drop 32).length := by rw [List.length_drop]; omega
    have l2 := stored_length (buf := image) (file := line1.drop 32) (off := i * np) (n := np) (by omega) hl32
    have a2 : ∀ j < np, (image.take (i * np) ++ (line1.drop 32).take np ++ image.drop (i * np + np))[i * np + j]?
        = file[32 + j]? := by
      intro j hj
      rw [stored_at (by omega) hl32 hj, List.getElem?_drop, a1 _ (by omega)]
    have b2 : ∀ x < i * np, (image.take (i * np) ++ (line1.drop 32).take np ++ image.drop (i * np + np))[x]? = image[x]? :=
      fun x hx => stored_before (by omega) hx
    generalize image.take (i * np) ++ (line1.drop 32).take np ++ image.drop (i * np + np) = image1 at l2 a2 b2
    obtain ⟨f1, f2⟩ := ih (i + 1) image1 line1 (file.drop (np + 32)) (by omega) (by omega)
    refine ⟨fun h => ?_, fun h => f2 (by rw [List.length_drop]; omega)⟩
    obtain ⟨image', line', g1, g2, g3, g4, g5⟩ := f1 (by rw [List.length_drop]; omega)
    refine ⟨image', line', ?_, by omega, g3, ?_, ?_⟩
    · rw [g1, List.drop_drop, hm, Nat.add_comm (np + 32)]
    · intro x hx
      rw [g4 x (by omega), b2 x hx]
    · intro k hk j hj
      cases k with
      | zero =>
        rw [Nat.add_zero, g4 _ (by omega), a2 j hj, Nat.zero_mul, Nat.zero_add]
      | succ k =>
        have := g5 k (by omega) j hj
        rw [show i + (k + 1) = i + 1 + k by omega, this, List.getElem?_drop]
        congr 1
        ring

/-! ### Whole files -/

theorem asciiRead_spec (file : Bytes) :
    (1345 ≤ file.length → ∃ ascii, asciiRead file = .ok (ascii, file.drop 1345)) ∧
    (file.length < 1345 → asciiRead file = .terminate) := by
  have z : (List.replicate 1346 (0 : UInt8)).length = 1346 := List.length_replicate
  unfold asciiRead
  generalize List.replicate 1346 (0 : UInt8) = zeros at z
  exact ⟨fun h => ⟨_, readAt_ok (n := 1345) (by omega) h⟩, fun h => readAt_short (n := 1345) (by omega) h⟩

/-- Fields of the header are fields of the file, which begins 1345 bytes earlier. -/
theorem header_field {file header : Bytes} (h : ∀ i < 5175, header[i]? = (file.drop 1345)[i]?)
    (hl : 1345 + 5175 ≤ file.length) {off : Nat} (ho : off + 4 ≤ 5175) : int4 header off = field file (1345 + off) := by
  rw [← int4_field (by omega)]
  refine int4_congr fun k hk => ?_
  rw [h _ (by omega), List.getElem?_drop, Nat.add_assoc]

theorem third_eq {file : Bytes} (hl : 1345 + 5175 ≤ file.length) :
    1345 + 5175 + 2636 + third (file.drop 1345) = imageStart file := by
  unfold third imageStart isVisibleComposite
  rw [header_field (file := file) (header := file.drop 1345) (fun _ _ => rfl) hl (by decide)]
  by_cases h : field file (1345 + 40) = 3
  · rw [if_pos h, if_pos (by rw [h]; rfl)]
  · rw [if_neg h, if_neg (by rw [beq_iff_eq]; exact h)]

theorem imageStart_ge (file : Bytes) : 1345 + 5175 + 2636 + 136704 ≤ imageStart file := by
  unfold imageStart
  split <;> omega

/-- Reading a file up to the lines. -/
theorem read_spec (p : Product) (file : Bytes) :
    (imageStart file ≤ file.length → ∃ header, read p file = (imageRead p header (file.drop (imageStart file)) >>= fun x => .ok x.1) ∧
      header.length = 192999 ∧ nlines header = lineCount file ∧ npixels header = pixelCount file) ∧
    (file.length < imageStart file → read p file = .terminate) := by
  have hs := imageStart_ge file
  obtain ⟨a1, a2⟩ := asciiRead_spec file
  obtain ⟨b1, b2⟩ := binaryRead_spec (file.drop 1345)
  unfold read
  by_cases h : file.length < 1345
  · rw [a2 h]
    exact ⟨fun h' => absurd h' (by omega), fun _ => rfl⟩
  obtain ⟨ascii, a1⟩ := a1 (by omega)
  rw [a1, Outcome.ok_bind]
  dsimp only
  by_cases h5 : file.length < 1345 + 5175
  · rw [b2 (by rw [List.length_drop]; omega)]
    exact ⟨fun h' => absurd h' (by omega), fun _ => rfl⟩
  have ht := third_eq (file := file) (by omega)
  refine ⟨fun h' => ?_, fun h' => ?_⟩
  · obtain ⟨header, c1, c2, c3⟩ := b1 (by rw [List.length_drop]; omega)
    refine ⟨header, ?_, c2, header_field c3 (by omega) (by decide), header_field c3 (by omega) (by decide)⟩
    rw [c1, Outcome.ok_bind]
    dsimp only
    rw [List.drop_drop, show 1345 + (5175 + 2636 + third (file.drop 1345)) = imageStart file by omega]
  · rw [b2 (by rw [List.length_drop]; omega)]
    rfl

end Msat.Mtp
