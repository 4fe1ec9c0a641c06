import Verif.Spec.NetcdfBand
import Mathlib.Tactic.NormNum

/-
C46 NetCDF export keeps the pixel type.
-/
namespace Msat.Props
open Msat NetcdfBand NetcdfBandSpec

theorem nc_trunc_int (n : Int) : NetcdfBand.trunc (n : Rat) = n := by
  unfold NetcdfBand.trunc
  split
  · exact Int.floor_intCast n
  · exact Int.ceil_intCast n

theorem toIntType_int (w : Nat) (n : Int) :
    toIntType w (some (n : Rat)) = if -2 ^ (w - 1) ≤ n ∧ n < 2 ^ (w - 1) then .ok n else .ub := by
  show (if -2 ^ (w - 1) ≤ NetcdfBand.trunc (n : Rat) ∧ NetcdfBand.trunc (n : Rat) < 2 ^ (w - 1) then
    Outcome.ok (NetcdfBand.trunc (n : Rat)) else .ub) = _
  rw [nc_trunc_int]

/-- Every band with one number per pixel is exported; when it is opened again it has the same type and the same
missing value.  Missing for the full property: missing values of unsigned bands in the upper half of the range. -/
theorem C46_type_partial (b : Band) (ht : Plain b.type) (hn : NodataFits b.type b.nodata) :
    ∃ v, exportBands [b] = .ok [v] ∧ openType v = b.type ∧ openNodata v = some b.nodata ∧ v.chnum = b.channel := by
  obtain ⟨t, nd, ch, px⟩ := b
  dsimp only at *
  rcases ht with rfl | rfl | rfl | rfl | rfl | rfl | rfl
  all_goals
    first
    | exact ⟨_, rfl, rfl, rfl, rfl⟩
    | (obtain ⟨n, rfl, h1, h2⟩ := hn
       have h2 : n ≤ _ := h2
       simp only [signedMax] at h2
       unfold exportBands rasterBandToNcVar
       simp only [ncTypeFor, fillFor, NcType.width, toIntType_int]
       rw [if_pos (by omega)]
       refine ⟨_, rfl, rfl, ?_, rfl⟩
       simp only [openNodata, toUnsigned, NcType.width, if_true]
       first
       | rfl
       | (rw [Int.emod_eq_of_lt h1 (by omega)]))

/-- All the bands of a dataset, in order. -/
theorem C46_dataset_partial : ∀ bs : List Band, (∀ b ∈ bs, Plain b.type ∧ NodataFits b.type b.nodata) →
    ∃ vs, exportBands bs = .ok vs ∧ vs.map openType = bs.map Band.type ∧
      vs.map openNodata = bs.map (fun b => some b.nodata) ∧ vs.map NcVar.chnum = bs.map Band.channel
  | [], _ => ⟨[], rfl, rfl, rfl, rfl⟩
  | b :: bs, h => by
    obtain ⟨v, e, h1, h2, h3⟩ := C46_type_partial b (h b (by simp)).1 (h b (by simp)).2
    obtain ⟨vs, es, i1, i2, i3⟩ := C46_dataset_partial bs fun c hc => h c (List.mem_cons_of_mem _ hc)
    refine ⟨v :: vs, ?_, by simp [h1, i1], by simp [h2, i2], by simp [h3, i3]⟩
    have e1 : ∃ v0, rasterBandToNcVar b = .ok (some v0) ∧ v = { v0 with chnum := b.channel } := by
      unfold exportBands at e
      cases hr : rasterBandToNcVar b with
      | ok o =>
        rw [hr] at e
        cases o with
        | none =>
          cases hc : b.channel <;> simp [hc, exportBands] at e
        | some v0 =>
          simp [exportBands] at e
          exact ⟨v0, rfl, e.symm⟩
      | throws m => rw [hr] at e; cases e
      | ub => rw [hr] at e; cases e
      | terminate => rw [hr] at e; cases e
      | diverges => rw [hr] at e; cases e
    obtain ⟨v0, e1, rfl⟩ := e1
    unfold exportBands
    rw [e1]
    show (exportBands bs >>= fun vs => pure ({ v0 with chnum := b.channel } :: vs)) = _
    rw [es]
    rfl

theorem view_store (t : DataType) (nt : NcType) (u : Bool) (h : ncTypeFor t = some (nt, u)) (c : Cell) (hc : HasType t c) :
    view t (store nt c) = c := by
  cases t <;> simp only [ncTypeFor, Option.some.injEq, Prod.mk.injEq, reduceCtorEq] at h <;> obtain ⟨rfl, rfl⟩ := h <;>
    cases c <;> simp only [HasType, range] at hc <;> try rfl
  all_goals
    simp only [store, view, NcType.width, toSigned, toUnsigned]
    congr 1
    omega

/-- The pixels of bands with bytes, 16 bit integers and floating point numbers are read back.  Missing for the full
property: 32 bit integers. -/
theorem C46_pixels_partial (b : Band) (ht : Plain b.type) (hn : NodataFits b.type b.nodata)
    (h32 : b.type ≠ .int32 ∧ b.type ≠ .uint32) (hp : ∀ c ∈ b.pixels, HasType b.type c) :
    ∃ v, exportBands [b] = .ok [v] ∧ readBlock v = .ok b.pixels := by
  obtain ⟨v, e, h1, h2, h3⟩ := C46_type_partial b ht hn
  refine ⟨v, e, ?_⟩
  have hd : ∃ nt u, ncTypeFor b.type = some (nt, u) ∧ v.data = b.pixels.map (store nt) := by
    unfold exportBands rasterBandToNcVar at e
    cases hr : ncTypeFor b.type with
    | none =>
      rcases ht with ht | ht | ht | ht | ht | ht | ht <;> rw [ht] at hr <;> cases hr
    | some p =>
      obtain ⟨nt, u⟩ := p
      rw [hr] at e
      cases hf : fillFor nt b.nodata with
      | ok f =>
        simp [hf, exportBands] at e
        exact ⟨nt, u, rfl, by rw [← e]⟩
      | throws m => simp [hf] at e
      | ub => simp [hf] at e
      | terminate => simp [hf] at e
      | diverges => simp [hf] at e
  obtain ⟨nt, u, hnt, hd⟩ := hd
  unfold readBlock
  rw [h1]
  dsimp only
  have hb : ¬ b.type.bytes * v.data.length < readBytes b.type * v.data.length := by
    rcases ht with ht | ht | ht | ht | ht | ht | ht <;> rw [ht] at h32 ⊢ <;> simp [DataType.bytes, readBytes] <;> simp at h32
  rw [if_neg hb, if_neg (by rcases ht with ht | ht | ht | ht | ht | ht | ht <;> rw [ht] <;> decide), hd, List.map_map]
  congr 1
  rw [List.map_congr_left (g := id)]
  · exact List.map_id _
  · intro c hc
    exact view_store b.type nt u hnt c (hp c hc)

/-! ### What is wrong -/

/-- NetCDF: the missing value of a band with unsigned pixels is converted to the signed type of the same size, which is
undefined for the values in the upper half of the range (255 for bytes, 65535 for 16 bit counts...). -/
theorem C46_violated_nodata (b : Band) (n : Int) (hn : b.nodata = some (n : Rat))
    (h : (b.type = .byte ∧ 128 ≤ n ∧ n ≤ 255) ∨ (b.type = .uint16 ∧ 32768 ≤ n ∧ n ≤ 65535) ∨
      (b.type = .uint32 ∧ 2147483648 ≤ n ∧ n ≤ 4294967295)) :
    NodataHasType b.type b.nodata ∧ ∀ bs, exportBands (b :: bs) = .ub := by
  obtain ⟨t, nd, ch, px⟩ := b
  dsimp only at *
  subst hn
  rcases h with ⟨rfl, h1, h2⟩ | ⟨rfl, h1, h2⟩ | ⟨rfl, h1, h2⟩
  all_goals
    refine ⟨⟨n, rfl, by omega, by omega⟩, ?_⟩
    intro bs
    unfold exportBands rasterBandToNcVar
    simp only [ncTypeFor, fillFor, NcType.width, toIntType_int]
    rw [if_neg (by omega)]
    rfl

/-- NetCDF: reading the pixels of any image of 32 bit integers writes twice the size of the block: `long` has 64 bits. -/
theorem C46_violated_int32 (v : NcVar) (h : v.type = .int) (hp : v.data ≠ []) : readBlock v = .ub := by
  unfold readBlock
  have hl : 0 < v.data.length := List.length_pos_iff.2 hp
  have ht : openType v = .int32 ∨ openType v = .uint32 := by
    unfold openType
    rw [h]
    cases v.unsigned <;> simp
  rcases ht with ht | ht <;> rw [ht] <;> dsimp only <;> rw [if_pos (by simp [DataType.bytes, readBytes]; omega)]

/-- NetCDF: a band of complex numbers is refused, but the result is not checked: if the band has a channel the null
pointer is used; if not, the export goes on, and the file lacks the band. -/
theorem C46_violated_refused (b : Band) (ht : ¬ Plain b.type) (bs : List Band) :
    (b.channel.isSome = true → exportBands (b :: bs) = .ub) ∧ (b.channel = none → exportBands (b :: bs) = exportBands bs) := by
  have hr : rasterBandToNcVar b = .ok none := by
    unfold rasterBandToNcVar
    have : ncTypeFor b.type = none := by
      unfold Plain at ht
      cases h : b.type <;> simp_all [ncTypeFor]
    rw [this]
  constructor
  · intro h
    unfold exportBands
    rw [hr]
    obtain ⟨c, hc⟩ := Option.isSome_iff_exists.1 h
    show (match b.channel with | some _ => Outcome.ub | none => exportBands bs) = _
    rw [hc]
  · intro h
    rw [exportBands, hr]
    show (match b.channel with | some _ => Outcome.ub | none => exportBands bs) = _
    rw [h]

/-- A band of 16 bit counts. -/
def countBand : Band := ⟨.uint16, some 0, some 9, [.bits 0, .bits 40000, .bits 1023]⟩

example : Plain countBand.type ∧ NodataFits countBand.type countBand.nodata ∧
    (∀ c ∈ countBand.pixels, HasType countBand.type c) := by
  refine ⟨.inr (.inr (.inl rfl)), ⟨0, by simp [countBand], by decide, by decide⟩, ?_⟩
  intro c hc
  simp only [countBand, List.mem_cons, List.not_mem_nil, or_false] at hc
  rcases hc with rfl | rfl | rfl <;> simp [HasType, range, countBand]

example : exportBands [countBand] = .ok [⟨.short, true, some (.bits 0), some 9, [.bits 0, .bits (-25536), .bits 1023]⟩] := by
  decide +kernel

end Msat.Props
