import Verif.Lemmas.Outcome
import Verif.Lemmas.PixelSize
import Verif.Props.C45
import Verif.Spec.NetcdfAny

/-
C116 Opening NetCDF files that any program may have written.
-/
namespace Msat.Props
open Msat NetcdfAny NetcdfAnySpec

/-! ### Attributes -/

theorem value_iff {α : Type} {att : String → Option Att} {conv : Att → α} {k : String} {d v : α} : Value att conv k d v ↔ v = NetcdfAny.getAttr att conv k d := by
  unfold Value NetcdfAny.getAttr
  cases att k with
  | none => simp
  | some a => simp

theorem asInt_toInt (v i : Int) : AsInt v i ↔ i = NetcdfAny.toInt v := by
  unfold AsInt NetcdfAny.toInt
  constructor
  · rintro ⟨h1, h2, h3⟩; omega
  · rintro rfl; omega

/-! ### Bands -/

theorem unsigned_iff (v : NetcdfAny.Var) : Unsigned v ↔ (NetcdfAny.getAttr v.att Att.asString "_Unsigned" "false" == "true") = true := by
  unfold Unsigned NetcdfAny.getAttr
  rw [beq_iff_eq]
  cases v.att "_Unsigned" with
  | none => simp
  | some a => simp

theorem type_iff (v : NetcdfAny.Var) (t : NetcdfBand.DataType) :
    TypeIs v t ↔ t = NetcdfAny.typeOf v.type (NetcdfAny.getAttr v.att Att.asString "_Unsigned" "false" == "true") := by
  unfold TypeIs NetcdfAny.typeOf
  have h := unsigned_iff v
  cases hb : (NetcdfAny.getAttr v.att Att.asString "_Unsigned" "false" == "true")
  · have : ¬ Unsigned v := by rw [h, hb]; simp
    cases v.type <;> simp [this]
  · have : Unsigned v := by rw [h, hb]
    cases v.type <;> simp [this]

/-- A band says what its variable says exactly if it is the one that is made for it. -/
theorem says_iff (s : Int) (key : String) (bug : Bool) (sx sy : Nat) (b : NetcdfAny.Band) :
    BandSays s key (bug = true) sx sy b ↔ b = NetcdfAny.openBand s key bug b.var sx sy := by
  constructor
  · rintro ⟨h1, h2, h3, h4, h5, h6, h7, h8, h9⟩
    obtain ⟨name, type, bx, bY, u, ch, cn, var, old⟩ := b
    simp only at h1 h2 h3 h4 h5 h6 h7 h8 h9
    unfold NetcdfAny.openBand
    rw [NetcdfAny.Band.mk.injEq]
    refine ⟨h1, (type_iff _ _).1 h2, (asInt_toInt _ _).1 h3, (asInt_toInt _ _).1 h4, ?_, h6, ?_, rfl, ?_⟩
    · rw [Bool.eq_iff_iff, h5, unsigned_iff]
    · cases ha : var.att key with
      | none =>
        rw [ha] at h6
        exact h8 h6
      | some a =>
        rw [ha] at h6
        exact h7 _ h6
    · rw [Bool.eq_iff_iff, h9]
  · intro h
    have h1 := congrArg NetcdfAny.Band.name h
    have h2 := congrArg NetcdfAny.Band.type h
    have h3 := congrArg NetcdfAny.Band.blockX h
    have h4 := congrArg NetcdfAny.Band.blockY h
    have h5 := congrArg NetcdfAny.Band.unsigned h
    have h6 := congrArg NetcdfAny.Band.channel h
    have h7 := congrArg NetcdfAny.Band.channelName h
    have h8 := congrArg NetcdfAny.Band.offset1bug h
    simp only [NetcdfAny.openBand] at h1 h2 h3 h4 h5 h6 h7 h8
    refine ⟨h1, (type_iff _ _).2 h2, (asInt_toInt _ _).2 h3, (asInt_toInt _ _).2 h4, ?_, h6, ?_, ?_, ?_⟩
    · rw [h5, unsigned_iff]
    · intro c hc
      rw [h7]
      rw [h6] at hc
      cases ha : b.var.att key with
      | none => rw [ha] at hc; cases hc
      | some a =>
        rw [ha] at hc
        injection hc with hc
        rw [← hc]
        rfl
    · intro hc
      rw [h7]
      rw [h6] at hc
      cases ha : b.var.att key with
      | none => rfl
      | some a => rw [ha] at hc; cases hc
    · rw [h8]

theorem openBand_var (s : Int) (key : String) (bug : Bool) (v : NetcdfAny.Var) (sx sy : Nat) : (NetcdfAny.openBand s key bug v sx sy).var = v := rfl

theorem image_cases (others : List String) (v : NetcdfAny.Var) : (∃ sx sy, IsImage others v sx sy) ∨ ∀ sx sy, ¬ IsImage others v sx sy := by
  by_cases h : ∃ sx sy, IsImage others v sx sy
  · exact Or.inl h
  · exact Or.inr fun sx sy hi => h ⟨sx, sy, hi⟩

theorem openBands_image {others : List String} {s : Int} {key : String} {bug : Bool} {v : NetcdfAny.Var} {vs : List NetcdfAny.Var} {sx sy : Nat}
    (h : IsImage others v sx sy) :
    NetcdfAny.openBands others s key bug (v :: vs) = NetcdfAny.openBand s key bug v sx sy :: NetcdfAny.openBands others s key bug vs := by
  obtain ⟨h1, h2⟩ := h
  have : ¬ others.contains v.name = true := by rw [List.contains_iff_mem]; exact h1
  rw [NetcdfAny.openBands, if_neg this, h2]
  rfl

theorem openBands_other {others : List String} {s : Int} {key : String} {bug : Bool} {v : NetcdfAny.Var} {vs : List NetcdfAny.Var}
    (h : ∀ sx sy, ¬ IsImage others v sx sy) : NetcdfAny.openBands others s key bug (v :: vs) = NetcdfAny.openBands others s key bug vs := by
  rw [NetcdfAny.openBands]
  by_cases hc : others.contains v.name = true
  · rw [if_pos hc]
  · rw [if_neg hc]
    have hn : v.name ∉ others := by rw [← List.contains_iff_mem]; exact hc
    split
    · next t sy sx hd =>
      by_cases ht : t = 1
      · subst ht
        exact absurd ⟨hn, hd⟩ (h sx sy)
      · rw [if_pos ht]
    · rfl

theorem bands_iff (others : List String) (s : Int) (key : String) (bug : Bool) (vs : List NetcdfAny.Var) (bs : List NetcdfAny.Band) :
    Bands others s key (bug = true) vs bs ↔ bs = NetcdfAny.openBands others s key bug vs := by
  constructor
  · intro h
    induction h with
    | nil => rfl
    | image sx sy h hv hb _ ih => rw [openBands_image h, ← ih, ← hv, ← (says_iff s key bug sx sy _).1 hb]
    | other h _ ih => rw [openBands_other h, ← ih]
  · rintro rfl
    induction vs with
    | nil => exact .nil
    | cons v vs ih =>
      rcases image_cases others v with ⟨sx, sy, h⟩ | h
      · rw [openBands_image h]
        exact .image sx sy h rfl ((says_iff s key bug sx sy _).2 (by rw [openBand_var])) ih
      · rw [openBands_other h]
        exact .other h ih

theorem sizeIs_iff (a : Option String) (b : Option Int) (c : Bytes) (l : Option Rat) (x y : Int) (bands : List NetcdfAny.Band) :
    SizeIs ⟨a, b, c, l, x, y, bands⟩ ↔ x = (NetcdfAny.sizeOf bands).1 ∧ y = (NetcdfAny.sizeOf bands).2 := by
  unfold SizeIs NetcdfAny.sizeOf
  cases bands <;> rfl

theorem firstVersion_iff (f : NetcdfAny.File) : FirstVersion f ↔ (NetcdfAny.getAttr f.att Att.asString "Version" "0" == "0") = true := by
  unfold FirstVersion NetcdfAny.getAttr
  rw [beq_iff_eq]
  cases f.att "Version" with
  | none => simp
  | some a => simp

/-! ### NetCDF -/

/-- A file is opened as NetCDF, and the image is the one given, exactly if the file is accepted, with a time that can be read, and the image says
what the file says: the satellite, the time, the longitude, and all the variables that are images, each with its name, type, size and channel. -/
theorem C116_image (f : NetcdfAny.File) (d : NetcdfAny.Image) : NetcdfAny.openFile f = some d ↔ Accepts f ∧ Describes f d := by
  have sample : ∀ k, (∀ a, f.att k = some a → a.asFloat = 1) ↔ NetcdfAny.getAttr f.att Att.asFloat k 1 = 1 := by
    intro k
    unfold NetcdfAny.getAttr
    cases f.att k with
    | none => simp
    | some a => simp
  have hv : FirstVersion f = ((NetcdfAny.getAttr f.att Att.asString "Version" "0" == "0") = true) := propext (firstVersion_iff f)
  obtain ⟨dn, di, dt, dl, dx, dy, db⟩ := d
  unfold NetcdfAny.openFile NetcdfAny.init Accepts
  rw [sample, sample]
  constructor
  · intro h
    by_cases h1 : f.isFile = true
    · by_cases h2 : f.valid = true
      · cases h3 : f.att "Satellite" with
        | none => simp [h1, h2, h3] at h
        | some a =>
          by_cases h4 : NetcdfAny.getAttr f.att Att.asFloat "SampleX" 1 = 1
          · by_cases h5 : NetcdfAny.getAttr f.att Att.asFloat "SampleY" 1 = 1
            · have hs : NetcdfAny.getAttr f.att Att.asString "Satellite" "" = a.asString := by unfold NetcdfAny.getAttr; rw [h3]
              simp only [h1, h2, h3, h4, h5, hs, Bool.not_true, Bool.false_eq_true, if_false, Option.isNone_some, ne_eq, not_true_eq_false] at h
              cases ht : Datetime.netcdfReadTime (str (NetcdfAny.getAttr f.att Att.asString "Time" "0000-00-00 00:00:00 UTC")) with
              | none => rw [ht] at h; cases h
              | some t =>
                rw [ht] at h
                injection h with h
                rw [NetcdfAny.Image.mk.injEq] at h
                obtain ⟨e1, e2, e3, e4, e5, e6, e7⟩ := h
                refine ⟨⟨h1, h2, by simp, h4, h5⟩, ?_, ?_, ?_, ?_, ?_, ?_⟩
                · intro a' ha' he
                  rw [h3] at ha'
                  injection ha' with ha'
                  subst ha'
                  rw [he] at e1 e2
                  exact ⟨e1.symm, e2.symm⟩
                · intro a' ha' he
                  rw [h3] at ha'
                  injection ha' with ha'
                  subst ha'
                  have : ¬ a.asString.isEmpty = true := by rw [String.isEmpty_iff]; exact he
                  rw [if_neg this] at e1 e2
                  exact ⟨e1.symm, e2.symm⟩
                · exact ⟨_, value_iff.2 rfl, by rw [← e3, ht]⟩
                · exact ⟨_, value_iff.2 rfl, e4.symm⟩
                · rw [hv, bands_iff, ← e2, ← e7]
                · rw [sizeIs_iff, ← e5, ← e6, ← e7]
                  exact ⟨rfl, rfl⟩
            · simp [h1, h2, h3, h4, h5] at h
          · simp [h1, h2, h3, h4] at h
      · simp [h1, h2] at h
    · simp [h1] at h
  · rintro ⟨⟨h1, h2, h3, h4, h5⟩, g1, g2, ⟨t, g3, g4⟩, ⟨l, g5, g6⟩, g7, g8⟩
    simp only at g1 g2 g4 g6
    cases h3' : f.att "Satellite" with
    | none => exact absurd h3' h3
    | some a =>
      have hs : NetcdfAny.getAttr f.att Att.asString "Satellite" "" = a.asString := by unfold NetcdfAny.getAttr; rw [h3']
      have hi : di = (if a.asString.isEmpty then none else some (Facts.spacecraftID a.asString)) ∧ dn = di.map fun _ => a.asString := by
        by_cases he : a.asString = ""
        · obtain ⟨e1, e2⟩ := g1 a h3' he
          subst e1 e2
          rw [he]
          exact ⟨rfl, rfl⟩
        · obtain ⟨e1, e2⟩ := g2 a h3' he
          subst e1 e2
          rw [if_neg (by rw [String.isEmpty_iff]; exact he)]
          exact ⟨rfl, rfl⟩
      simp only [h1, h2, h4, h5, hs, Bool.not_true, Bool.false_eq_true, if_false, Option.isNone_some, ne_eq, not_true_eq_false]
      rw [value_iff] at g3 g5
      subst g3 g5
      rw [g4]
      rw [hv, bands_iff] at g7
      rw [sizeIs_iff] at g8
      simp only at g7
      obtain ⟨hi1, hi2⟩ := hi
      rw [← hi1, ← g7, ← hi2, ← g8.1, ← g8.2, ← g6]

/-- What a band of a NetCDF file says of its numbers: the scale, the offset (files of the first version have 1 where 0 is meant), the unit. -/
theorem C116_numbers (f : NetcdfAny.File) (d : NetcdfAny.Image) (h : NetcdfAny.openFile f = some d) (b : NetcdfAny.Band) (hb : b ∈ d.bands) :
    Value b.var.att Att.asDouble "scale_factor" (some 1) b.scale ∧ Value b.var.att Att.asString "units" "" b.unit ∧
    ∃ o, Value b.var.att Att.asDouble "add_offset" (some 0) o ∧
      ((FirstVersion f ∧ o = some 1 ∧ b.offset = some 0) ∨ (¬ (FirstVersion f ∧ o = some 1) ∧ b.offset = o)) := by
  refine ⟨value_iff.2 rfl, value_iff.2 rfl, _, value_iff.2 rfl, ?_⟩
  obtain ⟨-, hd⟩ := (C116_image f d).1 h
  have old : ∀ {vs bs s}, Bands ["time"] s "chnum" (FirstVersion f) vs bs → ∀ b ∈ bs, (b.offset1bug = true ↔ FirstVersion f) := by
    intro vs bs s hB
    induction hB with
    | nil => intro b hb; cases hb
    | image sx sy h hv hs _ ih =>
      intro b hb
      rcases List.mem_cons.1 hb with rfl | hb
      · exact hs.old
      · exact ih b hb
    | other h _ ih => exact ih
  have := old hd.bands b hb
  unfold NetcdfAny.Band.offset
  by_cases hf : FirstVersion f
  · by_cases ho : NetcdfAny.getAttr b.var.att Att.asDouble "add_offset" (some 0) = some 1
    · exact Or.inl ⟨hf, ho, if_pos ⟨this.2 hf, ho⟩⟩
    · exact Or.inr ⟨fun h => ho h.2, if_neg fun h => ho h.2⟩
  · exact Or.inr ⟨fun h => hf h.1, if_neg fun h => hf (this.1 h.1)⟩

/-- The missing value: the attribute `_FillValue`, without sign if the values have none, or `missing_value`, or zero for the known channels. -/
theorem C116_nodata (b : NetcdfAny.Band) (w : Nat) (hw : b.var.type = .byte ∧ w = 8 ∨ b.var.type = .char ∧ w = 8 ∨ b.var.type = .short ∧ w = 16 ∨ b.var.type = .int ∧ w = 32) :
    (∀ a, b.var.att "_FillValue" = some a → b.unsigned = false → b.nodata = a.asDouble) ∧
    (∀ a, b.var.att "_FillValue" = some a → b.unsigned = true → ∃ n : Int, b.nodata = some (n : Rat) ∧ 0 ≤ n ∧ n < 2 ^ w ∧
      n % 2 ^ w = (if w = 8 then a.asByte else if w = 16 then a.asShort else a.asInt) % 2 ^ w) ∧
    (∀ a, b.var.att "_FillValue" = none → b.var.att "missing_value" = some a → b.nodata = a.asDouble) ∧
    (b.var.att "_FillValue" = none → b.var.att "missing_value" = none → ∀ c, b.channel = some c → 0 ≤ c → c ≤ 12 → b.nodata = some 0) := by
  refine ⟨?_, ?_, ?_, ?_⟩
  · intro a ha hu
    unfold NetcdfAny.Band.nodata
    simp only [ha, hu, Bool.false_eq_true, if_false]
  · intro a ha hu
    unfold NetcdfAny.Band.nodata
    simp only [ha, hu, if_true]
    rcases hw with ⟨ht, rfl⟩ | ⟨ht, rfl⟩ | ⟨ht, rfl⟩ | ⟨ht, rfl⟩ <;> rw [ht] <;> refine ⟨_, rfl, ?_, ?_, ?_⟩ <;>
      simp only [NetcdfBand.toUnsigned] <;> norm_num <;> omega
  · intro a ha hm
    unfold NetcdfAny.Band.nodata
    simp only [ha, hm]
  · intro ha hm c hc h1 h2
    unfold NetcdfAny.Band.nodata NetcdfAny.defaultPackedMissing
    simp only [ha, hm, hc, Option.getD_some]
    rw [if_pos ⟨h1, by omega⟩]

/-! ### Geotransform -/

theorem int_ok {v w : Int} : NetcdfAny.int v = .ok w ↔ (-2 ^ 31 ≤ v ∧ v < 2 ^ 31) ∧ w = v := by
  unfold NetcdfAny.int
  split
  · next h =>
    constructor
    · intro e; injection e with e; exact ⟨h, e.symm⟩
    · rintro ⟨-, rfl⟩; rfl
  · next h =>
    constructor
    · intro e; cases e
    · rintro ⟨h', -⟩; exact absurd h' h

theorem size_ok {f : ℤ → Outcome ℝ} {v : Int} {s : Option ℝ} : NetcdfAny.size f v = .ok s ↔ SizeFor f v s := by
  unfold NetcdfAny.size SizeFor
  by_cases h : v = 0
  · rw [if_pos h]
    constructor
    · intro e; injection e with e; exact Or.inl ⟨h, e.symm⟩
    · rintro (⟨-, rfl⟩ | ⟨h', -⟩)
      · rfl
      · exact absurd h h'
  · rw [if_neg h]
    constructor
    · intro e
      obtain ⟨r, hr, e⟩ := Outcome.of_bind_ok e
      injection e with e
      exact Or.inr ⟨h, r, hr, e.symm⟩
    · rintro (⟨h', -⟩ | ⟨-, r, hr, rfl⟩)
      · exact absurd h' h
      · rw [hr]; rfl

theorem grid_iff {c l : Int} {psx psy : Option ℝ} {g : Geo} : Grid c l psx psy g ↔ g = NetcdfAny.matrix c l psx psy := by
  unfold Grid NetcdfAny.matrix
  cases psx with
  | none => cases psy <;> rfl
  | some x =>
    cases psy with
    | none => rfl
    | some y =>
      constructor
      · rintro ⟨⟨a, b, c, d, e, h⟩, rfl, h1, h2, h3, h4, h5, h6⟩
        simp only at h1 h2 h3 h4 h5 h6
        subst h1 h2 h3 h4 h5 h6
        rfl
      · rintro rfl
        exact ⟨_, rfl, rfl, rfl, rfl, rfl, rfl, rfl⟩

/-- The geotransform is the one of the attributes, for numbers that are not too large: see `C116_violated_least`. -/
theorem C116_geotransform_partial (f : NetcdfAny.File) (g : Geo) (h1 : ∀ k a, f.att k = some a → Modest a.asInt) :
    NetcdfAny.geoTransform f = .ok g ↔ Georeferenced f g := by
  have small : ∀ k d, Modest d → Modest (NetcdfAny.getAttr f.att Att.asInt k d) := by
    intro k d hd
    unfold NetcdfAny.getAttr
    cases hk : f.att k with
    | none => exact hd
    | some a => exact h1 k a hk
  have abs : ∀ v, Modest v → NetcdfAny.absInt v = .ok |v| := by
    intro v hv
    unfold NetcdfAny.absInt
    rw [int_ok]
    obtain ⟨h1, h2⟩ := hv
    exact ⟨⟨by omega, by omega⟩, by rw [Int.natCast_natAbs]⟩
  unfold NetcdfAny.geoTransform Georeferenced
  cases ha : f.att "AreaStartPix" with
  | none =>
    constructor
    · intro e; injection e with e; exact Or.inl ⟨Or.inl rfl, e.symm⟩
    · rintro (⟨-, rfl⟩ | ⟨asp, _, _, _, _, _, _, _, h, -⟩)
      · rfl
      · cases h
  | some asp =>
    cases hb : f.att "AreaStartLin" with
    | none =>
      constructor
      · intro e; injection e with e; exact Or.inl ⟨Or.inr rfl, e.symm⟩
      · rintro (⟨-, rfl⟩ | ⟨_, asl, _, _, _, _, _, _, -, h, -⟩)
        · rfl
        · cases h
    | some asl =>
      simp only
      obtain ⟨p1, p2⟩ := h1 _ _ ha
      obtain ⟨q1, q2⟩ := h1 _ _ hb
      obtain ⟨c1, c2⟩ := small "Column_Offset" 1856 ⟨by norm_num, by norm_num⟩
      obtain ⟨l1, l2⟩ := small "Line_Offset" 1856 ⟨by norm_num, by norm_num⟩
      have a1 := abs _ (small "Column_Scale_Factor" (-13642337) ⟨by norm_num, by norm_num⟩)
      have a2 := abs _ (small "Line_Scale_Factor" (-13642337) ⟨by norm_num, by norm_num⟩)
      have e1 : NetcdfAny.int (asp.asInt - 1) = .ok (asp.asInt - 1) := int_ok.2 ⟨⟨by omega, by omega⟩, rfl⟩
      have e2 : NetcdfAny.int (asl.asInt - 1) = .ok (asl.asInt - 1) := int_ok.2 ⟨⟨by omega, by omega⟩, rfl⟩
      have e3 : ∀ v, -2 ^ 31 < v → v < 2 ^ 31 → NetcdfAny.int v = .ok v := fun v h h' => int_ok.2 ⟨⟨by omega, h'⟩, rfl⟩
      unfold NetcdfAny.geoTransformFrom
      rw [e1, Outcome.ok_bind, e2, Outcome.ok_bind, a1, Outcome.ok_bind]
      constructor
      · intro h
        obtain ⟨psx, s1, h⟩ := Outcome.of_bind_ok h
        rw [a2, Outcome.ok_bind] at h
        obtain ⟨psy, s2, h⟩ := Outcome.of_bind_ok h
        rw [e3 _ (by omega) (by omega), Outcome.ok_bind, e3 _ (by omega) (by omega), Outcome.ok_bind, e3 _ (by omega) (by omega), Outcome.ok_bind] at h
        injection h with h
        refine Or.inr ⟨asp, asl, _, _, _, _, psx, psy, rfl, rfl, value_iff.2 rfl, value_iff.2 rfl, value_iff.2 rfl, value_iff.2 rfl, size_ok.1 s1,
          size_ok.1 s2, grid_iff.2 ?_⟩
        rw [← h, show -(NetcdfAny.getAttr f.att Att.asInt "Column_Offset" 1856 - (asp.asInt - 1)) =
          asp.asInt - 1 - NetcdfAny.getAttr f.att Att.asInt "Column_Offset" 1856 by omega]
      · rintro (⟨h | h, -⟩ | ⟨asp', asl', c, l, co, lo, psx, psy, h1, h2, h3, h4, h5, h6, h7, h8, h9⟩)
        · cases h
        · cases h
        · have h1 := Option.some.inj h1
          have h2 := Option.some.inj h2
          rw [value_iff] at h3 h4 h5 h6
          subst h1 h2 h3 h4 h5 h6
          rw [size_ok.2 h7, Outcome.ok_bind, a2, Outcome.ok_bind, size_ok.2 h8, Outcome.ok_bind, e3 _ (by omega) (by omega), Outcome.ok_bind,
            e3 _ (by omega) (by omega), Outcome.ok_bind, e3 _ (by omega) (by omega), Outcome.ok_bind, grid_iff.1 h9,
            show -(NetcdfAny.getAttr f.att Att.asInt "Column_Offset" 1856 - (asp.asInt - 1)) =
              asp.asInt - 1 - NetcdfAny.getAttr f.att Att.asInt "Column_Offset" 1856 by omega, Outcome.pure_eq]

/-! ### NetCDF-24 -/

theorem firstNamed_iff (f : NetcdfAny.File) (name : String) (p : NetcdfAny.Var) : FirstNamed f name p ↔ NetcdfAny.getVar f name = some p := by
  unfold FirstNamed NetcdfAny.getVar
  rw [List.find?_eq_some_iff_append]
  constructor
  · rintro ⟨l, r, h1, h2, h3⟩
    exact ⟨by rw [beq_iff_eq]; exact h2, l, r, h1, fun v hv => by simpa using h3 v hv⟩
  · rintro ⟨h2, l, r, h1, h3⟩
    exact ⟨l, r, h1, by simpa using h2, fun v hv => by simpa using h3 v hv⟩

theorem need_ok {α : Type} {p : NetcdfAny.Var} {k : String} {go : Att → Outcome (Option α)} {x : α} :
    NetcdfAny.need p k go = .ok (some x) ↔ ∃ a, p.att k = some a ∧ go a = .ok (some x) := by
  unfold NetcdfAny.need
  cases p.att k with
  | none => simp
  | some a => simp

theorem bind_some_iff {α β : Type} {m : Outcome α} {go : α → Outcome β} {x : β} : Outcome.bind m go = .ok x ↔ ∃ a, m = .ok a ∧ go a = .ok x := by
  constructor
  · intro h; exact Outcome.of_bind_ok h
  · rintro ⟨a, rfl, h⟩; exact h

theorem projection_iff (f : NetcdfAny.File) (lon : Option Rat) (g : Geo) :
    NetcdfAny.projection24 f = .ok (some (lon, g)) ↔ ∃ p, FirstNamed f "Projection" p ∧ Projection p lon g := by
  unfold NetcdfAny.projection24
  simp only [firstNamed_iff]
  cases hp : NetcdfAny.getVar f "Projection" with
  | none => simp
  | some p =>
    simp only [Option.some.injEq, exists_eq_left']
    unfold Projection
    cases hl : p.att "Lop" with
    | none =>
      simp only [Outcome.ok.injEq, Option.some.injEq, Prod.mk.injEq]
      constructor
      · rintro ⟨rfl, rfl⟩; exact Or.inl ⟨trivial, rfl, rfl⟩
      · rintro (⟨-, rfl, rfl⟩ | ⟨_, _, _, _, _, _, _, h, -⟩)
        · exact ⟨rfl, rfl⟩
        · cases h
    | some lop =>
      simp only [need_ok, bind_some_iff, int_ok, size_ok]
      constructor
      · rintro ⟨xp, h1, yp, h2, x0, h3, x0', ⟨⟨a1, a2⟩, rfl⟩, y0, h4, y0', ⟨⟨b1, b2⟩, rfl⟩, dx, h5, psx, s1, dy, h6, psy, s2, h⟩
        injection h with h
        injection h with h
        injection h with h h'
        refine Or.inr ⟨lop, xp, yp, x0, y0, dx, dy, rfl, h1, h2, h3, h4, h5, h6, h.symm, ⟨by omega, by omega⟩, ⟨by omega, by omega⟩, psx, psy, s1, s2, ?_⟩
        rw [grid_iff, ← h', show -(xp.asInt - (x0.asInt - 1)) = x0.asInt - 1 - xp.asInt by omega]
      · rintro (⟨h, -⟩ | ⟨lop', xp, yp, x0, y0, dx, dy, h0, h1, h2, h3, h4, h5, h6, rfl, ⟨a1, a2⟩, ⟨b1, b2⟩, psx, psy, s1, s2, h⟩)
        · cases h
        · injection h0 with h0
          subst h0
          refine ⟨xp, h1, yp, h2, x0, h3, _, ⟨⟨by omega, by omega⟩, rfl⟩, y0, h4, _, ⟨⟨by omega, by omega⟩, rfl⟩, dx, h5, psx, s1, dy, h6, psy, s2, ?_⟩
          rw [grid_iff.1 h, show -(xp.asInt - (x0.asInt - 1)) = x0.asInt - 1 - xp.asInt by omega]

theorem accepts24_iff (f : NetcdfAny.File) : Accepts24 f ↔ f.isFile = true ∧ f.valid = true ∧ (f.att "GribEditionNumber").isNone = false ∧
    NetcdfAny.getAttr f.att Att.asInt "GribEditionNumber" 1 = 1 ∧
    (NetcdfAny.getAttr f.att Att.asInt "LevelType" 0 = 55 ∨ NetcdfAny.getAttr f.att Att.asInt "LevelType" 0 = 56) := by
  unfold Accepts24 NetcdfAny.getAttr
  cases f.att "GribEditionNumber" with
  | none => simp
  | some a =>
    cases f.att "LevelType" with
    | none => simp
    | some b => simp

theorem open24_of_accepts {f : NetcdfAny.File} (h : Accepts24 f) : NetcdfAny.openFile24 f = NetcdfAny.init24 f := by
  obtain ⟨h1, h2, h3, -, -⟩ := (accepts24_iff f).1 h
  unfold NetcdfAny.openFile24
  rw [h1, h2, h3]
  rfl

theorem open24_refused {f : NetcdfAny.File} (h : ¬ Accepts24 f) : NetcdfAny.openFile24 f = .ok none := by
  rw [accepts24_iff] at h
  unfold NetcdfAny.openFile24 NetcdfAny.init24
  by_cases h1 : f.isFile = true
  · by_cases h2 : f.valid = true
    · cases h3 : (f.att "GribEditionNumber").isNone with
      | true => simp [h1, h2]
      | false =>
        by_cases h4 : NetcdfAny.getAttr f.att Att.asInt "GribEditionNumber" 1 = 1
        · have h5 : NetcdfAny.getAttr f.att Att.asInt "LevelType" 0 ≠ 55 ∧ NetcdfAny.getAttr f.att Att.asInt "LevelType" 0 ≠ 56 := by
            constructor
            · intro e; exact h ⟨h1, h2, h3, h4, Or.inl e⟩
            · intro e; exact h ⟨h1, h2, h3, h4, Or.inr e⟩
          rw [h1, h2, if_neg (by simp), if_neg (by simp), if_neg (by simp), if_neg (by simpa using h4), if_pos h5]
        · rw [h1, h2, if_neg (by simp), if_neg (by simp), if_neg (by simp), if_pos h4]
    · simp [h1, h2]
  · simp [h1]

theorem init24_of_accepts {f : NetcdfAny.File} (h : Accepts24 f) (d : NetcdfAny.Image) (g : Geo) :
    NetcdfAny.init24 f = .ok (some (d, g)) ↔ ∃ p, NetcdfAny.projection24 f = .ok (some p) ∧ g = p.2 ∧ d = ⟨(if NetcdfAny.getAttr f.att Att.asInt "SatelliteID" 0 = 0 then none
        else some (NetcdfAny.getAttr f.att Att.asInt "SatelliteID" 0)).map Facts.spacecraftName, (if NetcdfAny.getAttr f.att Att.asInt "SatelliteID" 0 = 0 then none
        else some (NetcdfAny.getAttr f.att Att.asInt "SatelliteID" 0)), Datetime.formatStamp (NetcdfAny.getAttr f.att Att.asInt "Year" 0) (NetcdfAny.getAttr f.att Att.asInt "Month" 0)
        (NetcdfAny.getAttr f.att Att.asInt "Day" 0) (NetcdfAny.getAttr f.att Att.asInt "Hour" 0) (NetcdfAny.getAttr f.att Att.asInt "Minute" 0)
        (NetcdfAny.getAttr f.att Att.asInt "Second" 0), p.1, (NetcdfAny.sizeOf (NetcdfAny.openBands ["Projection", "time"] (NetcdfAny.getAttr f.att Att.asInt "SatelliteID" 0) "L1" false f.vars)).1,
        (NetcdfAny.sizeOf (NetcdfAny.openBands ["Projection", "time"] (NetcdfAny.getAttr f.att Att.asInt "SatelliteID" 0) "L1" false f.vars)).2,
        NetcdfAny.openBands ["Projection", "time"] (NetcdfAny.getAttr f.att Att.asInt "SatelliteID" 0) "L1" false f.vars⟩ := by
  obtain ⟨-, -, -, h4, h5⟩ := (accepts24_iff f).1 h
  unfold NetcdfAny.init24
  rw [if_neg (by simpa using h4), if_neg (by rcases h5 with e | e <;> simp [e])]
  constructor
  · intro h
    obtain ⟨r, hr, h⟩ := Outcome.of_bind_ok h
    cases r with
    | none => cases h
    | some p =>
      injection h with h
      injection h with h
      injection h with h h'
      exact ⟨p, hr, h'.symm, h.symm⟩
  · rintro ⟨p, hr, rfl, rfl⟩
    rw [hr]
    rfl

/-- A file is opened as NetCDF-24, and the image and its geotransform are those given, exactly if the file is accepted and the image says what
the file says. -/
theorem C116_image24 (f : NetcdfAny.File) (d : NetcdfAny.Image) (g : Geo) :
    NetcdfAny.openFile24 f = .ok (some (d, g)) ↔ Accepts24 f ∧ Describes24 f d g := by
  by_cases ha : Accepts24 f
  · rw [open24_of_accepts ha, init24_of_accepts ha]
    obtain ⟨dn, di, dt, dl, dx, dy, db⟩ := d
    constructor
    · rintro ⟨⟨lon, g'⟩, hp, e, hd⟩
      simp only at e
      subst e
      rw [NetcdfAny.Image.mk.injEq] at hd
      obtain ⟨e1, e2, e3, e4, e5, e6, e7⟩ := hd
      subst e4
      refine ⟨ha, ?_, ?_, ?_, ?_, ?_, ?_⟩
      · intro hv
        rw [value_iff] at hv
        rw [← hv, if_pos rfl] at e1 e2
        exact ⟨e1, e2⟩
      · intro s hv hs
        rw [value_iff] at hv
        rw [← hv, if_neg hs] at e1 e2
        exact ⟨e1, e2⟩
      · exact ⟨_, _, _, _, _, _, value_iff.2 rfl, value_iff.2 rfl, value_iff.2 rfl, value_iff.2 rfl, value_iff.2 rfl, value_iff.2 rfl, e3⟩
      · exact (projection_iff f _ _).1 hp
      · refine ⟨_, value_iff.2 rfl, ?_⟩
        have := (bands_iff ["Projection", "time"] (NetcdfAny.getAttr f.att Att.asInt "SatelliteID" 0) "L1" false f.vars db).2 e7
        simpa using this
      · rw [sizeIs_iff, e5, e6, e7]
        exact ⟨rfl, rfl⟩
    · rintro ⟨-, g1, g2, ⟨y, mo, dd, ho, mi, se, v1, v2, v3, v4, v5, v6, ht⟩, hp, ⟨s, hs, hb⟩, hz⟩
      simp only at g1 g2 ht hp hb
      rw [value_iff] at v1 v2 v3 v4 v5 v6 hs
      subst v1 v2 v3 v4 v5 v6 hs
      refine ⟨(dl, g), (projection_iff f _ _).2 hp, rfl, ?_⟩
      have hb' : db = NetcdfAny.openBands ["Projection", "time"] (NetcdfAny.getAttr f.att Att.asInt "SatelliteID" 0) "L1" false f.vars :=
        (bands_iff _ _ _ _ _ _).1 (by simpa using hb)
      rw [sizeIs_iff] at hz
      rw [NetcdfAny.Image.mk.injEq]
      refine ⟨?_, ?_, ht, rfl, ?_, ?_, hb'⟩
      · by_cases h0 : NetcdfAny.getAttr f.att Att.asInt "SatelliteID" 0 = 0
        · rw [if_pos h0]; exact (g1 (value_iff.2 h0.symm)).1
        · rw [if_neg h0]; exact (g2 _ (value_iff.2 rfl) h0).1
      · by_cases h0 : NetcdfAny.getAttr f.att Att.asInt "SatelliteID" 0 = 0
        · rw [if_pos h0]; exact (g1 (value_iff.2 h0.symm)).2
        · rw [if_neg h0]; exact (g2 _ (value_iff.2 rfl) h0).2
      · rw [hz.1, hb']
      · rw [hz.2, hb']
  · rw [open24_refused ha]
    constructor
    · intro h; cases h
    · rintro ⟨h, -⟩; exact absurd h ha

theorem need_handled {α : Type} {p : NetcdfAny.Var} {k : String} {go : Att → Outcome (Option α)}
    (h : ∀ a, p.att k = some a → ∃ r, go a = .ok r) : ∃ r, NetcdfAny.need p k go = .ok r := by
  unfold NetcdfAny.need
  cases hk : p.att k with
  | none => exact ⟨none, rfl⟩
  | some a => exact h a hk

theorem bind_handled {α β : Type} {m : Outcome α} {go : α → Outcome β} (h1 : ∃ a, m = .ok a) (h2 : ∀ a, ∃ r, go a = .ok r) :
    ∃ r, Outcome.bind m go = .ok r := by
  obtain ⟨a, rfl⟩ := h1
  exact h2 a

/-- Whatever else is in the file, opening it as NetCDF-24 gives an image or the null pointer: if there is a variable `Projection`, and its numbers
are those of the columns and lines of an image and of pixels that have a size.  (Opening as NetCDF always gives one or the other.) -/
theorem C116_total24_partial (f : NetcdfAny.File) (p : NetcdfAny.Var) (hp : FirstNamed f "Projection" p)
    (h0 : ∀ k ∈ ["X0", "Y0"], ∀ a, p.att k = some a → Modest a.asInt)
    (h1 : ∀ a, p.att "DX" = some a → a.asInt ≠ 0 → ∃ s, PixelSize.pixelHSizeFromSeviriDX a.asInt = .ok s)
    (h2 : ∀ a, p.att "DY" = some a → a.asInt ≠ 0 → ∃ s, PixelSize.pixelVSizeFromSeviriDY a.asInt = .ok s) : ∃ r, NetcdfAny.openFile24 f = .ok r := by
  have fits : ∀ k ∈ ["X0", "Y0"], ∀ a, p.att k = some a → ∃ r, NetcdfAny.int (a.asInt - 1) = .ok r := by
    intro k hk a ha
    obtain ⟨b1, b2⟩ := h0 k hk a ha
    exact ⟨_, int_ok.2 ⟨⟨by omega, by omega⟩, rfl⟩⟩
  have sized : ∀ (F : ℤ → Outcome ℝ) (v : Int), (v ≠ 0 → ∃ s, F v = .ok s) → ∃ r, NetcdfAny.size F v = .ok r := by
    intro F v h
    by_cases hv : v = 0
    · exact ⟨none, size_ok.2 (Or.inl ⟨hv, rfl⟩)⟩
    · obtain ⟨s, hs⟩ := h hv
      exact ⟨some s, size_ok.2 (Or.inr ⟨hv, s, hs, rfl⟩)⟩
  have proj : ∃ r, NetcdfAny.projection24 f = .ok r := by
    unfold NetcdfAny.projection24
    rw [(firstNamed_iff _ _ _).1 hp]
    simp only
    cases hl : p.att "Lop" with
    | none => exact ⟨_, rfl⟩
    | some lop =>
      simp only
      refine need_handled fun xp _ => need_handled fun yp _ => need_handled fun x0 hx0 => bind_handled (fits _ (by simp) _ hx0) fun x0' =>
        need_handled fun y0 hy0 => bind_handled (fits _ (by simp) _ hy0) fun y0' => need_handled fun dx hdx =>
        bind_handled (sized _ _ (h1 dx hdx)) fun psx => need_handled fun dy hdy => bind_handled (sized _ _ (h2 dy hdy)) fun psy => ⟨_, rfl⟩
  by_cases ha : Accepts24 f
  · obtain ⟨r, hr⟩ := proj
    obtain ⟨-, -, -, h4, h5⟩ := (accepts24_iff f).1 ha
    rw [open24_of_accepts ha]
    unfold NetcdfAny.init24
    rw [if_neg (by simpa using h4), if_neg (by rcases h5 with e | e <;> simp [e])]
    rw [hr]
    cases r with
    | none => exact ⟨none, rfl⟩
    | some q => exact ⟨_, rfl⟩
  · exact ⟨none, open24_refused ha⟩

/-! ### Pixels -/

/-- Every pixel of a band that has the size of the image is the value of the variable in its place. -/
theorem C116_pixels_partial (b : NetcdfAny.Band) (sx sy : Nat) (hx : b.blockX = sx) (hy : b.blockY = sy) (data : List NetcdfBand.Cell)
    (hd : b.var.data = some data) (hl : data.length = sx * sy) (ht : b.type ≠ .unknown) (h1 : b.type ≠ .int32) (h2 : b.type ≠ .uint32)
    (x y : Nat) (h3 : x < sx) (h4 : y < sy) :
    ∃ h : y * sx + x < data.length, NetcdfAny.pixel b x y = .ok (some (NetcdfBand.view b.type (data[y * sx + x]'h))) := by
  have hlt : y * sx + x < data.length := by
    rw [hl]
    calc y * sx + x < y * sx + sx := by omega
      _ = (y + 1) * sx := by rw [Nat.succ_mul]
      _ ≤ sy * sx := Nat.mul_le_mul_right _ h4
      _ = sx * sy := Nat.mul_comm _ _
  refine ⟨hlt, ?_⟩
  have hr : NetcdfBand.readBytes b.type ≤ b.type.bytes := by
    cases hb : b.type <;> first | (exact absurd hb h1) | (exact absurd hb h2) | decide
  unfold NetcdfAny.pixel NetcdfAny.readBlock
  rw [hx, hy, Int.toNat_natCast, Int.toNat_natCast, Nat.div_eq_of_lt h3, Nat.div_eq_of_lt h4, Nat.mod_eq_of_lt h3, Nat.mod_eq_of_lt h4,
    if_neg (by simp), if_neg ht, hd]
  simp only
  rw [if_neg (by rw [Nat.not_lt]; exact Nat.mul_le_mul_right _ hr), Outcome.ok_bind]
  simp only [Outcome.pure_eq, List.getElem?_map, List.getElem?_eq_getElem hlt, Option.map_some]

/-- Discrepancy: the image has the size of its first band, but other bands may be smaller: their pixels out of their first block cannot be read,
whatever is in the file.  Nothing is said about it when the file is opened. -/
theorem C116_violated_sizes (b : NetcdfAny.Band) (x y : Nat) (hx : 0 < b.blockX) (hy : 0 < b.blockY) (h : b.blockX ≤ x ∨ b.blockY ≤ y) :
    NetcdfAny.pixel b x y = .ok none := by
  unfold NetcdfAny.pixel NetcdfAny.readBlock
  rw [if_pos]
  · rfl
  · rcases h with h | h
    · left
      have : 0 < x / b.blockX.toNat := Nat.div_pos (by omega) (by omega)
      omega
    · right
      have : 0 < y / b.blockY.toNat := Nat.div_pos (by omega) (by omega)
      omega

/-- Discrepancy: pixels of variables of type `int` are read as `long`s, of eight bytes, into a block with room for half of them. -/
theorem C116_violated_long (b : NetcdfAny.Band) (h : b.type = .int32 ∨ b.type = .uint32) (data : List NetcdfBand.Cell) (hd : b.var.data = some data)
    (hl : data ≠ []) (x y : Nat) (h3 : (x : Int) < b.blockX) (h4 : (y : Int) < b.blockY) : NetcdfAny.pixel b x y = .ub := by
  have hpos : 0 < data.length := List.length_pos_iff.2 hl
  have hlt : b.type.bytes * data.length < NetcdfBand.readBytes b.type * data.length := by
    refine Nat.mul_lt_mul_of_pos_right ?_ hpos
    rcases h with h | h <;> rw [h] <;> decide
  have hu : b.type ≠ .unknown := by rcases h with h | h <;> rw [h] <;> decide
  unfold NetcdfAny.pixel NetcdfAny.readBlock
  rw [Nat.div_eq_of_lt (by omega), Nat.div_eq_of_lt (by omega), if_neg (by simp), if_neg hu, hd]
  simp only
  rw [if_pos hlt]
  rfl

/-! ### An example -/

/-- A text attribute. -/
def textAtt (s : String) : Att := ⟨0, 0, 0, 0, none, s⟩

/-- A number attribute. -/
def intAtt (n : Int) : Att := ⟨n, n, n, n, some n, ""⟩

/-- A variable with an image. -/
def imageVar (name : String) (sx sy : Nat) (data : List NetcdfBand.Cell) : NetcdfAny.Var :=
  ⟨name, .short, [1, sy, sx], fun k => if k = "chnum" then some (intAtt 9) else if k = "_Unsigned" then some (textAtt "true") else none, some data⟩

/-- A file that another program could have written: two images of different sizes. -/
def twoSizes : NetcdfAny.File :=
  ⟨true, true, fun k => if k = "Satellite" then some (textAtt "MSG2") else none,
    [⟨"time", .int, [1], fun _ => none, none⟩, imageVar "IR_108" 3 2 [.bits 1, .bits 2, .bits 3, .bits 4, .bits 5, .bits (-1)], imageVar "small" 2 1 [.bits 7, .bits 8]]⟩

/-- It is accepted; the pixels of the first image are there, and half of those of the second are not. -/
example : Accepts twoSizes ∧ ∃ d, NetcdfAny.openFile twoSizes = some d ∧ d.sx = 3 ∧ d.sy = 2 ∧ ∃ a b, d.bands = [a, b] ∧
    NetcdfAny.pixel a 2 1 = .ok (some (.bits 65535)) ∧ NetcdfAny.pixel b 1 0 = .ok (some (.bits 8)) ∧ NetcdfAny.pixel b 2 1 = .ok none := by
  have hr : Datetime.netcdfReadTime (str "0000-00-00 00:00:00 UTC") ≠ none := by decide +kernel
  cases ht : Datetime.netcdfReadTime (str "0000-00-00 00:00:00 UTC") with
  | none => exact absurd ht hr
  | some t =>
    refine ⟨⟨rfl, rfl, by decide +kernel, (by intro a h; cases h), (by intro a h; cases h)⟩, ⟨some "MSG2", some 56, t, some 0, 3, 2,
      [NetcdfAny.openBand 56 "chnum" true (imageVar "IR_108" 3 2 [.bits 1, .bits 2, .bits 3, .bits 4, .bits 5, .bits (-1)]) 3 2,
        NetcdfAny.openBand 56 "chnum" true (imageVar "small" 2 1 [.bits 7, .bits 8]) 2 1]⟩, ?_, rfl, rfl, _, _, rfl, ?_⟩
    · unfold NetcdfAny.openFile NetcdfAny.init
      simp only [twoSizes, NetcdfAny.getAttr]
      simp
      rw [ht]
      rfl
    · decide +kernel

/-- A band of a variable of type `int`. -/
example : (NetcdfAny.openBand 56 "chnum" false ⟨"counts", .int, [1, 1, 2], fun _ => none, some [.bits 1, .bits 2]⟩ 2 1).type = .int32 := rfl

/-- Discrepancy: a file with an edition number and a level type but without a variable `Projection` is undefined behaviour: a null pointer is
used. -/
theorem C116_violated_projection (f : NetcdfAny.File) (h : Accepts24 f) (hp : ∀ v ∈ f.vars, v.name ≠ "Projection") : NetcdfAny.openFile24 f = .ub := by
  have hv : NetcdfAny.getVar f "Projection" = none := by
    unfold NetcdfAny.getVar
    rw [List.find?_eq_none]
    intro v hv
    simpa using hp v hv
  obtain ⟨-, -, -, h4, h5⟩ := (accepts24_iff f).1 h
  rw [open24_of_accepts h]
  unfold NetcdfAny.init24
  rw [if_neg (by simpa using h4), if_neg (by rcases h5 with e | e <;> simp [e])]
  unfold NetcdfAny.projection24
  rw [hv]
  rfl

/-- A file for NetCDF-24, with any variables. -/
def edition1 (vars : List NetcdfAny.Var) : NetcdfAny.File :=
  ⟨true, true, fun k => if k = "GribEditionNumber" then some (intAtt 1) else if k = "LevelType" then some (intAtt 56) else none, vars⟩

theorem edition1_accepted (vars : List NetcdfAny.Var) : Accepts24 (edition1 vars) :=
  ⟨rfl, rfl, ⟨intAtt 1, rfl, rfl⟩, intAtt 56, rfl, Or.inr rfl⟩

/-- A file without variables. -/
example : Accepts24 (edition1 []) ∧ ∀ v ∈ (edition1 []).vars, v.name ≠ "Projection" := ⟨edition1_accepted [], fun v hv => by cases hv⟩

/-- The variable with a projection. -/
def projectionVar : NetcdfAny.Var :=
  ⟨"Projection", .int, [], fun k => if k = "Lop" then some (intAtt 9) else if k = "Xp" then some (intAtt 1856) else if k = "Yp" then some (intAtt 1856)
    else if k = "X0" then some (intAtt 101) else if k = "Y0" then some (intAtt 201) else if k = "DX" then some (intAtt 3622)
    else if k = "DY" then some (intAtt 3622) else none, none⟩

/-- A file with a projection is opened, and its first pixel is 1756 columns and 1656 lines from the point below the satellite. -/
example : ∃ d m, NetcdfAny.openFile24 (edition1 [projectionVar, imageVar "IR_108" 3 2 []]) = .ok (some (d, .matrix m)) ∧ d.lon = some 9 ∧ d.sx = 3 ∧
    m.x0 = -1756 * m.dx ∧ m.y0 = 1656 * -m.dy ∧ m.dx = PixelSize.sizeX := by
  have hd : PixelSize.pixelHSizeFromSeviriDX 3622 = .ok PixelSize.sizeX := by unfold PixelSize.pixelHSizeFromSeviriDX; norm_num
  have hv : PixelSize.pixelVSizeFromSeviriDY 3622 = .ok PixelSize.sizeY := by unfold PixelSize.pixelVSizeFromSeviriDY; norm_num
  have hp : NetcdfAny.projection24 (edition1 [projectionVar, imageVar "IR_108" 3 2 []]) = .ok (some (some 9, .matrix
      { x0 := (-1756 : ℝ) * PixelSize.sizeX, y0 := (1656 : ℝ) * PixelSize.sizeY, dx := PixelSize.sizeX, dy := -PixelSize.sizeY, rx := 0, ry := 0 })) := by
    rw [projection_iff]
    refine ⟨projectionVar, ⟨[], _, rfl, rfl, fun v hv => by cases hv⟩, Or.inr ⟨intAtt 9, intAtt 1856, intAtt 1856, intAtt 101, intAtt 201, intAtt 3622, intAtt 3622,
      rfl, rfl, rfl, rfl, rfl, rfl, rfl, rfl, ⟨by decide, by decide⟩, ⟨by decide, by decide⟩, some PixelSize.sizeX, some PixelSize.sizeY,
      Or.inr ⟨by decide, _, hd, rfl⟩, Or.inr ⟨by decide, _, hv, rfl⟩, _, rfl, rfl, rfl, rfl, rfl, ?_, ?_⟩⟩
    · simp only [intAtt]; norm_num
    · simp only [intAtt]; norm_num
  have ho := (init24_of_accepts (edition1_accepted _) _ _).2 ⟨_, hp, rfl, rfl⟩
  rw [← open24_of_accepts (edition1_accepted _)] at ho
  refine ⟨_, _, ho, rfl, by rfl, rfl, ?_, rfl⟩
  simp only
  ring

/-- Discrepancy: a file without time is taken for an image of the day 0 of the month 0 of the year 0. -/
theorem C116_violated_time (f : NetcdfAny.File) (d : NetcdfAny.Image) (h : NetcdfAny.openFile f = some d) (ht : f.att "Time" = none) :
    d.datetime = str "0000-00-00 00:00:00" := by
  obtain ⟨-, hd⟩ := (C116_image f d).1 h
  obtain ⟨t, h1, h2⟩ := hd.time
  rcases h1 with ⟨a, ha, -⟩ | ⟨-, rfl⟩
  · rw [ht] at ha; cases ha
  · have e : Datetime.netcdfReadTime (str "0000-00-00 00:00:00 UTC") = some (Datetime.formatStamp 0 0 0 0 0 0) := by
      have : Text.scanf Datetime.netcdfFormat (str "0000-00-00 00:00:00 UTC") = [0, 0, 0, 0, 0, 0] := by decide +kernel
      unfold Datetime.netcdfReadTime
      rw [this]
    rw [e] at h2
    injection h2 with h2
    rw [← h2]
    have hf : DatetimeSpec.Fits 0 0 0 0 0 0 := by refine ⟨?_, ?_, ?_, ?_, ?_, ?_⟩ <;> omega
    exact (format_stamp hf).trans (by decide +kernel)

/-- `twoSizes` has no time. -/
example : twoSizes.att "Time" = none := rfl

/-- Discrepancy: the least number for the first column, or for a scale factor, is undefined behaviour. -/
theorem C116_violated_least (f : NetcdfAny.File) (asp asl : Att) (h1 : f.att "AreaStartPix" = some asp) (h2 : f.att "AreaStartLin" = some asl)
    (h : asp.asInt = -2 ^ 31) : NetcdfAny.geoTransform f = .ub := by
  unfold NetcdfAny.geoTransform NetcdfAny.geoTransformFrom
  rw [h1, h2]
  simp only
  have : NetcdfAny.int (asp.asInt - 1) = .ub := if_neg (by omega)
  rw [this]
  rfl

/-- Such numbers. -/
example : (intAtt (-2 ^ 31)).asInt = -2 ^ 31 := rfl

/-- Discrepancy: with a scale factor of zero the geotransform is said to be there, but it is made of NaN. -/
theorem C116_violated_zero (f : NetcdfAny.File) (asp asl c : Att) (hm : ∀ k a, f.att k = some a → Modest a.asInt) (h1 : f.att "AreaStartPix" = some asp)
    (h2 : f.att "AreaStartLin" = some asl) (h3 : f.att "Column_Scale_Factor" = some c) (hc : c.asInt = 0)
    (h4 : f.att "Line_Scale_Factor" = none) : NetcdfAny.geoTransform f = .ok .notANumber := by
  rw [C116_geotransform_partial f _ hm]
  have hl : NetcdfAny.vSize |(-13642337 : Int)| = .ok PixelSize.sizeY := by
    unfold NetcdfAny.vSize PixelSize.pixelVSizeFromLFAC
    rw [show |(-13642337 : Int)| = 13642337 from rfl, show (((13642337 : Int) : ℝ)) * (2 ^ 16)⁻¹ * 2 ^ 16 = ((13642337 : Int) : ℝ) by field_simp,
      PixelSize.roundC_int, PixelSize.toInt_int _ (by norm_num) (by norm_num)]
    rfl
  exact Or.inr ⟨asp, asl, 0, -13642337, _, _, none, _, h1, h2, Or.inl ⟨c, h3, hc.symm⟩, Or.inr ⟨h4, rfl⟩, value_iff.2 rfl, value_iff.2 rfl,
    Or.inl ⟨by decide, rfl⟩, Or.inr ⟨by decide, _, hl, rfl⟩, rfl⟩

/-- A file with a start of the image and a scale factor of zero. -/
def zeroFactor : NetcdfAny.File :=
  ⟨true, true, fun k => if k = "AreaStartPix" then some (intAtt 1) else if k = "AreaStartLin" then some (intAtt 1)
    else if k = "Column_Scale_Factor" then some (intAtt 0) else none, []⟩

example : (∀ k a, zeroFactor.att k = some a → Modest a.asInt) ∧ zeroFactor.att "AreaStartPix" = some (intAtt 1) ∧ zeroFactor.att "AreaStartLin" = some (intAtt 1) ∧
    zeroFactor.att "Column_Scale_Factor" = some (intAtt 0) ∧ zeroFactor.att "Line_Scale_Factor" = none := by
  refine ⟨?_, rfl, rfl, rfl, rfl⟩
  intro k a h
  simp only [zeroFactor] at h
  split_ifs at h <;> (rw [← Option.some.inj h]; exact ⟨by decide, by decide⟩)

end Msat.Props
