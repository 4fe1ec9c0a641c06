import Mathlib.Tactic.SplitIfs
import Verif.Model.HriLabel
import Verif.Spec.HriLabel
import Verif.Lemmas.Outcome

namespace Msat.Props
open Hri HriSpec

/-- What a label announces, when its format byte is a known one. -/
def announced (l : Label) : Option Announced :=
  (family l.format).map fun f => ⟨f, l.ir != 0, l.visS != 0 || l.visN != 0, l.wv != 0, l.visS == 255 || l.visN == 255⟩

/-- Every member of the label is the number at its place, for all numbers and on machines of both byte
orders. -/
theorem C35_label (machine : Bool) (a b c d e : Nat) (ha : a < 2 ^ 16) (hb : b < 2 ^ 16) (hc : c < 2 ^ 16)
    (hd : d < 2 ^ 16) (he : e < 2 ^ 32) (f vs vn ir wv g en sc k1 k2 k3 k4 : UInt8) (rest : Bytes) :
    readLabel machine (be 2 a ++ be 2 b ++ be 2 c ++ be 2 d ++ be 4 e ++
      [f, vs, vn, ir, wv, g, en, sc, k1, k2, k3, k4] ++ rest)
      = .ok ⟨a, b, c, d, e, f, vs, vn, ir, wv, g, en, sc, k1, k2, k3, k4⟩ := by
  have hdet : detectBig machine = machine := by cases machine <;> decide
  have hn : ∀ x : Nat, (UInt8.ofNat x).toNat = x % 256 := by intro x; simp
  have h2 : ∀ v : Nat, v < 2 ^ 16 → ∀ r : Bytes,
      ∃ i, i2FromBuff machine (UInt8.ofNat (v / 256) :: UInt8.ofNat v :: r) = .ok i ∧ toUnsigned 16 i = v := by
    intro v hv r
    unfold i2FromBuff toUnsigned
    simp only [hdet]
    have hl : load machine (if machine = true then [UInt8.ofNat (v / 256), UInt8.ofNat v]
        else [UInt8.ofNat v, UInt8.ofNat (v / 256)]) = v := by
      cases machine <;>
        simp only [load, if_true, if_false, Bool.false_eq_true, List.reverse_cons, List.reverse_nil, List.nil_append,
          List.cons_append, List.foldl_cons, List.foldl_nil, hn] <;> omega
    rw [hl]
    refine ⟨_, rfl, ?_⟩
    split <;> omega
  have h4 : ∀ v : Nat, v < 2 ^ 32 → ∀ r : Bytes, ∃ i, i4FromBuff machine
      (UInt8.ofNat (v / 256 / 256 / 256) :: UInt8.ofNat (v / 256 / 256) :: UInt8.ofNat (v / 256) :: UInt8.ofNat v :: r)
        = .ok i ∧ toUnsigned 32 i = v := by
    intro v hv r
    unfold i4FromBuff toUnsigned
    simp only [hdet]
    have hl : load machine (if machine = true then
          [UInt8.ofNat (v / 256 / 256 / 256), UInt8.ofNat (v / 256 / 256), UInt8.ofNat (v / 256), UInt8.ofNat v]
        else [UInt8.ofNat v, UInt8.ofNat (v / 256), UInt8.ofNat (v / 256 / 256), UInt8.ofNat (v / 256 / 256 / 256)])
          = v := by
      cases machine <;>
        simp only [load, if_true, if_false, Bool.false_eq_true, List.reverse_cons, List.reverse_nil, List.nil_append,
          List.cons_append, List.foldl_cons, List.foldl_nil, hn] <;> omega
    rw [hl]
    refine ⟨_, rfl, ?_⟩
    split <;> omega
  simp only [be, List.nil_append, List.cons_append, List.append_assoc]
  unfold readLabel
  simp only [List.drop_succ_cons, List.drop_zero]
  obtain ⟨i1, e1, r1⟩ := h2 a ha (UInt8.ofNat (b / 256) :: UInt8.ofNat b :: UInt8.ofNat (c / 256) :: UInt8.ofNat c ::
    UInt8.ofNat (d / 256) :: UInt8.ofNat d :: UInt8.ofNat (e / 256 / 256 / 256) :: UInt8.ofNat (e / 256 / 256) ::
    UInt8.ofNat (e / 256) :: UInt8.ofNat e :: f :: vs :: vn :: ir :: wv :: g :: en :: sc :: k1 :: k2 :: k3 :: k4 :: rest)
  obtain ⟨i2, e2, r2⟩ := h2 b hb (UInt8.ofNat (c / 256) :: UInt8.ofNat c ::
    UInt8.ofNat (d / 256) :: UInt8.ofNat d :: UInt8.ofNat (e / 256 / 256 / 256) :: UInt8.ofNat (e / 256 / 256) ::
    UInt8.ofNat (e / 256) :: UInt8.ofNat e :: f :: vs :: vn :: ir :: wv :: g :: en :: sc :: k1 :: k2 :: k3 :: k4 :: rest)
  obtain ⟨i3, e3, r3⟩ := h2 c hc (UInt8.ofNat (d / 256) :: UInt8.ofNat d :: UInt8.ofNat (e / 256 / 256 / 256) ::
    UInt8.ofNat (e / 256 / 256) :: UInt8.ofNat (e / 256) :: UInt8.ofNat e ::
    f :: vs :: vn :: ir :: wv :: g :: en :: sc :: k1 :: k2 :: k3 :: k4 :: rest)
  obtain ⟨i4, e4, r4⟩ := h2 d hd (UInt8.ofNat (e / 256 / 256 / 256) ::
    UInt8.ofNat (e / 256 / 256) :: UInt8.ofNat (e / 256) :: UInt8.ofNat e ::
    f :: vs :: vn :: ir :: wv :: g :: en :: sc :: k1 :: k2 :: k3 :: k4 :: rest)
  obtain ⟨i5, e5, r5⟩ := h4 e he (f :: vs :: vn :: ir :: wv :: g :: en :: sc :: k1 :: k2 :: k3 :: k4 :: rest)
  rw [e1, Outcome.ok_bind, e2, Outcome.ok_bind, e3, Outcome.ok_bind, e4, Outcome.ok_bind, e5, Outcome.ok_bind,
    r1, r2, r3, r4, r5]

/-- Which channels are encrypted is what the bits of the byte say. -/
theorem C35_encryption (l : Label) (visS visN ir wv : Bool) (h : Encrypts l.encryption visS visN ir wv) :
    l.visSEncrypted = visS ∧ l.visNEncrypted = visN ∧ l.irEncrypted = ir ∧ l.wvEncrypted = wv := by
  obtain ⟨others, h⟩ := h
  unfold Label.visSEncrypted Label.visNEncrypted Label.irEncrypted Label.wvEncrypted
  have ho : others < 16 := by
    have := l.encryption.toNat_lt
    omega
  have hb : l.encryption = UInt8.ofNat (16 * others + (if visS then 8 else 0) + (if visN then 4 else 0) + (if ir then 2 else 0) + (if wv then 1 else 0)) := by
    rw [← h]
    simp
  rw [hb]
  have key : ∀ o : Fin 16, ∀ visS visN ir wv : Bool,
      let b := UInt8.ofNat (16 * o.val + (if visS then 8 else 0) + (if visN then 4 else 0) + (if ir then 2 else 0) + (if wv then 1 else 0))
      (b &&& 8 != 0) = visS ∧ (b &&& 4 != 0) = visN ∧ (b &&& 2 != 0) = ir ∧ (b &&& 1 != 0) = wv := by decide +kernel
  exact key ⟨others, ho⟩ visS visN ir wv

/-- Every byte says it in some way. -/
theorem C35_encryption_total (b : UInt8) : ∃ visS visN ir wv, Encrypts b visS visN ir wv := by
  refine ⟨b.toNat / 8 % 2 = 1, b.toNat / 4 % 2 = 1, b.toNat / 2 % 2 = 1, b.toNat % 2 = 1, b.toNat / 16, ?_⟩
  simp only [decide_eq_true_eq]
  split_ifs <;> omega

example : Encrypts 0x32 false false true false := ⟨3, rfl⟩

/-- The format code of a label is the name of what it announces; a label with another format byte is
refused. -/
theorem C35_code (l : Label) :
    l.formatCode = match announced l with
      | some a => .ok (code a)
      | none => .terminate := by
  unfold announced family Label.formatCode code Label.isA Label.isB Label.isX Label.irPresent Label.visSPresent
    Label.visNPresent Label.wvPresent Label.visSReduced Label.visNReduced letter
  by_cases h0 : l.format = 0
  · simp only [h0, beq_self_eq_true, if_true, Option.map_some]
    cases hw : (l.wv != 0) <;> cases hv : (l.visS != 0 || l.visN != 0) <;>
      cases hr : (l.visS == 255 || l.visN == 255) <;> cases hi : (l.ir != 0) <;> rfl
  · by_cases h1 : l.format = 255
    · simp only [h1, Option.map_some]
      cases hw : (l.wv != 0) <;> cases hv : (l.visS != 0 || l.visN != 0) <;>
        cases hr : (l.visS == 255 || l.visN == 255) <;> cases hi : (l.ir != 0) <;> rfl
    · by_cases h2 : l.format = 15
      · simp only [h2, Option.map_some]
        cases hw : (l.wv != 0) <;> cases hv : (l.visS != 0 || l.visN != 0) <;>
          cases hr : (l.visS == 255 || l.visN == 255) <;> cases hi : (l.ir != 0) <;> rfl
      · simp [h0, h1, h2]

/-- Two labels with the same code have the same family and the same bands; if there is no water vapour band,
also the same resolution of the visible one. -/
theorem C35_unique (l l' : Label) (c : List Char) (h : l.formatCode = .ok c) (h' : l'.formatCode = .ok c) :
    ∃ a a', announced l = some a ∧ announced l' = some a' ∧ a.family = a'.family ∧ a.ir = a'.ir ∧
      a.vis = a'.vis ∧ a.wv = a'.wv ∧ (a.vis → ¬ a.wv → a.reduced = a'.reduced) := by
  rw [C35_code] at h h'
  cases ha : announced l with
  | none => rw [ha] at h; cases h
  | some a =>
    cases ha' : announced l' with
    | none => rw [ha'] at h'; cases h'
    | some a' =>
      rw [ha] at h
      rw [ha'] at h'
      have e : code a = code a' := by
        injection h with h; injection h' with h'; rw [h, h']
      refine ⟨a, a', rfl, rfl, ?_⟩
      clear h h' ha ha'
      obtain ⟨f, i, v, w, r⟩ := a
      obtain ⟨f', i', v', w', r'⟩ := a'
      revert e
      cases f <;> cases f' <;> cases i <;> cases i' <;> cases v <;> cases v' <;> cases w <;> cases w' <;>
        cases r <;> cases r' <;> decide

/-- The images read for a label are those of its bands in its family, every one with its dimensions, and this
happens exactly for the disseminated combinations. -/
theorem C35_images (l : Label) (a : Announced) (h : announced l = some a) (c : List Char) (hc : l.formatCode = .ok c) :
    (disseminated a = true → imagesOf c = .ok ((bands a).map fun b => (a.family, b)) ∧
      ∀ b ∈ bands a, ∃ npx nl, dims a.family b = some (npx, nl)) ∧
    (disseminated a = false → imagesOf c = .terminate) := by
  rw [C35_code, h] at hc
  injection hc with hc
  subst hc
  clear h
  have hd : ∀ f b, (∃ npx nl, dims f b = some (npx, nl)) ↔ (dims f b).isSome = true := by
    intro f b
    cases hdm : dims f b with
    | none => simp
    | some p => simp; exact ⟨p.1, p.2, rfl⟩
  simp only [hd]
  obtain ⟨f, i, v, w, r⟩ := a
  cases f <;> cases i <;> cases v <;> cases w <;> cases r <;> exact ⟨by decide, by decide⟩

/-- A format has a georeference exactly when it has images. -/
theorem C35_georeference (c : List Char) : (∃ g, geolocationOf c = .ok g) ↔ ∃ is, imagesOf c = .ok is := by
  constructor
  · rintro ⟨g, h⟩
    unfold geolocationOf at h
    split at h
    · rename_i hc; rcases hc with rfl | rfl | rfl | rfl <;> exact ⟨_, rfl⟩
    split at h
    · rename_i hc; subst hc; exact ⟨_, rfl⟩
    split at h
    · rename_i hc; rcases hc with rfl | rfl | rfl | rfl <;> exact ⟨_, rfl⟩
    split at h
    · rename_i hc; rcases hc with rfl | rfl | rfl <;> exact ⟨_, rfl⟩
    cases h
  · rintro ⟨is, h⟩
    unfold imagesOf at h
    split at h
    · rename_i hc; subst hc; exact ⟨_, rfl⟩
    split at h
    · rename_i hc; subst hc; exact ⟨_, rfl⟩
    split at h
    · rename_i hc; subst hc; exact ⟨_, rfl⟩
    split at h
    · rename_i hc; subst hc; exact ⟨_, rfl⟩
    split at h
    · rename_i hc; subst hc; exact ⟨_, rfl⟩
    split at h
    · rename_i hc; subst hc; exact ⟨_, rfl⟩
    split at h
    · rename_i hc; rcases hc with rfl | rfl <;> exact ⟨_, rfl⟩
    split at h
    · rename_i hc; subst hc; exact ⟨_, rfl⟩
    split at h
    · rename_i hc; subst hc; exact ⟨_, rfl⟩
    split at h
    · rename_i hc; subst hc; exact ⟨_, rfl⟩
    split at h
    · rename_i hc; subst hc; exact ⟨_, rfl⟩
    cases h

/-- Only the columns and lines of the full images differ between the two A formats: both see the same disc
with the same field of view (columns times sampling angle, CFAC being proportional to the inverse of the
angle). -/
theorem C35_field_of_view (l : Label) (a : Announced) (h : announced l = some a) (c : List Char)
    (hc : l.formatCode = .ok c) (hf : a.family = .A) (hdis : disseminated a = true) (b : Band) (hb : b ∈ bands a) :
    ∃ g npx nl, geolocationOf c = .ok g ∧ dims .A b = some (npx, nl) ∧ (npx : Int) * 9102222 = 2500 * -g.cfac ∧
      (nl : Int) * 9102222 = 2500 * -g.lfac := by
  rw [C35_code, h] at hc
  injection hc with hc
  subst hc
  clear h
  obtain ⟨f, i, v, w, r⟩ := a
  dsimp only at hf
  subst hf
  cases i <;> cases v <;> cases w <;> cases r <;> revert hdis hb <;> cases b <;>
    first
    | (intro h1; exact absurd h1 (by decide))
    | (intro _ h2; exact absurd h2 (by decide))
    | (intro _ _; exact ⟨_, _, _, rfl, rfl, by decide, by decide⟩)

/-- The point below the satellite, for all formats. -/
theorem C35_centre (l : Label) (a : Announced) (h : announced l = some a) (c : List Char)
    (hc : l.formatCode = .ok c) (hdis : disseminated a = true) :
    ∃ g, geolocationOf c = .ok g ∧ (g.coff, g.loff) = centre a := by
  rw [C35_code, h] at hc
  injection hc with hc
  subst hc
  clear h
  obtain ⟨f, i, v, w, r⟩ := a
  cases f <;> cases i <;> cases v <;> cases w <;> cases r <;> revert hdis <;>
    first
    | (intro h1; exact absurd h1 (by decide))
    | (intro _; exact ⟨_, rfl, by decide⟩)

/-- An A format label with infrared and reduced visible channels. -/
example : announced ⟨8, 2500, 1, 1, 1234, 0, 255, 0, 1, 0, 0, 0, 0, 0, 0, 0, 0⟩ = some ⟨.A, true, true, false, true⟩ ∧
    disseminated ⟨.A, true, true, false, true⟩ = true ∧
    code ⟨.A, true, true, false, true⟩ = ['A', 'I', 'V', 'H'] := by decide

end Msat.Props
