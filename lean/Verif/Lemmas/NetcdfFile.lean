import Verif.Spec.NetcdfFile
import Verif.Props.C46

/-
Lemmas on the bands of NetCDF files.
-/
namespace Msat.NetcdfFileLemmas
open Msat NetcdfFile NetcdfFileSpec NetcdfBandSpec Props

/-- The variable of a band. -/
def Written (nx ny : Nat) (b : Band) (v : Var) : Prop :=
  v.name = b.name ∧ v.dims = [1, ny, nx] ∧ NetcdfBand.openType v.raster = b.raster.type ∧
  NetcdfBand.openNodata v.raster = some b.raster.nodata ∧ v.raster.chnum = b.raster.channel ∧ v.scale = some b.scale ∧
  v.offset = some b.offset ∧ v.units = some b.units ∧
  (b.raster.type ≠ .int32 ∧ b.raster.type ≠ .uint32 → (∀ c ∈ b.raster.pixels, HasType b.raster.type c) →
    NetcdfBand.readBlock v.raster = .ok b.raster.pixels)

theorem exportBands_one {b : NetcdfBand.Band} {v : NetcdfBand.NcVar} (e : NetcdfBand.exportBands [b] = .ok [v]) :
    ∃ v0, NetcdfBand.rasterBandToNcVar b = .ok (some v0) ∧ v = { v0 with chnum := b.channel } := by
  unfold NetcdfBand.exportBands at e
  cases hr : NetcdfBand.rasterBandToNcVar b with
  | ok o =>
    rw [hr] at e
    cases o with
    | none => cases hc : b.channel <;> simp [hc, NetcdfBand.exportBands] at e
    | some v0 =>
      simp [NetcdfBand.exportBands] at e
      exact ⟨v0, rfl, e.symm⟩
  | throws m => rw [hr] at e; cases e
  | ub => rw [hr] at e; cases e
  | terminate => rw [hr] at e; cases e
  | diverges => rw [hr] at e; cases e

theorem ncType_plain {t : NetcdfBand.DataType} (h : Plain t) : ∃ p, NetcdfBand.ncTypeFor t = some p := by
  rcases h with rfl | rfl | rfl | rfl | rfl | rfl | rfl <;> exact ⟨_, rfl⟩

theorem bandVar_ok {valid : String → Bool} {used : List String} (nx ny : Nat) {b : Band} (h : Exportable valid b)
    (hu : b.name ∉ used) : ∃ v, bandVar valid used nx ny b = .ok (some v) ∧
      Written nx ny b { v with raster := { v.raster with chnum := b.raster.channel } } := by
  obtain ⟨h1, h2, h3⟩ := h
  obtain ⟨p, hp⟩ := ncType_plain h2
  obtain ⟨v, e, t1, t2, t3⟩ := C46_type_partial b.raster h2 h3
  obtain ⟨v0, e0, rfl⟩ := exportBands_one e
  unfold bandVar
  rw [hp]
  dsimp only
  rw [if_neg (by simp [h1, hu]), e0]
  refine ⟨_, rfl, rfl, rfl, t1, t2, rfl, rfl, rfl, rfl, ?_⟩
  intro h32 hpx
  obtain ⟨v', e', hr⟩ := C46_pixels_partial b.raster h2 h3 h32 hpx
  rw [e] at e'
  cases e'
  exact hr

theorem addBands_ok {valid : String → Bool} (nx ny : Nat) : ∀ (bs : List Band) (vars : List Var),
    (∀ b ∈ bs, Exportable valid b) → (bs.map Band.name).Nodup → (∀ b ∈ bs, b.name ∉ vars.map Var.name) →
    ∃ vs, addBands valid nx ny vars bs = .ok (vars ++ vs) ∧ List.Forall₂ (Written nx ny) bs vs
  | [], vars, _, _, _ => ⟨[], by simp [addBands], .nil⟩
  | b :: bs, vars, h, hn, hd => by
    obtain ⟨v, e, hw⟩ := bandVar_ok nx ny (h b (by simp)) (hd b (by simp))
    rw [List.map_cons, List.nodup_cons] at hn
    obtain ⟨vs, es, hf⟩ := addBands_ok nx ny bs (vars ++ [{ v with raster := { v.raster with chnum := b.raster.channel } }])
      (fun c hc => h c (List.mem_cons_of_mem _ hc)) hn.2 (by
        intro c hc
        rw [List.map_append, List.mem_append]
        rintro (h' | h')
        · exact hd c (List.mem_cons_of_mem _ hc) h'
        · rw [List.map_singleton, List.mem_singleton] at h'
          have : c.name = b.name := h'.trans hw.1
          exact hn.1 (this ▸ List.mem_map_of_mem hc))
    refine ⟨_ :: vs, ?_, .cons hw hf⟩
    unfold addBands
    rw [e]
    simp only [Outcome.ok_bind]
    rw [es]
    simp

theorem written_isBand {nx ny : Nat} {skipped : List String} {b : Band} {v : Var} (h : Written nx ny b v) (hb : b.name ∉ skipped) :
    isBand skipped v = true := by
  unfold isBand
  rw [h.1, h.2.1]
  simp [hb]

theorem filter_written {nx ny : Nat} {skipped : List String} {bs : List Band} {vs : List Var}
    (h : List.Forall₂ (Written nx ny) bs vs) (hb : ∀ b ∈ bs, b.name ∉ skipped) : vs.filter (isBand skipped) = vs := by
  induction h with
  | nil => rfl
  | cons h hs ih =>
    rw [List.filter_cons_of_pos (written_isBand h (hb _ (by simp))), ih fun b hm => hb b (List.mem_cons_of_mem _ hm)]

theorem channelName_seviri {s c : Int} {name : String} {w : Int} {t : Bool} (hs : s ∈ SatSpec.seviri)
    (h : (c, name, w, t) ∈ SatSpec.channels) : Facts.channelName s c = name := by
  have key : ∀ e ∈ SatSpec.channels, ∀ s ∈ SatSpec.seviri, Facts.channelName s e.1 = e.2.1 := by decide
  exact key _ h s hs

theorem openBand_same {nx ny : Nat} {b : Band} {v : Var} (s : Int) (h : Written nx ny b v) :
    SameBand s b (openBand s v) ∧ SamePixels b (openBand s v) := by
  obtain ⟨h1, h2, h3, h4, h5, h6, h7, h8, h9⟩ := h
  refine ⟨⟨h1, h3, ?_, ?_, ?_, ?_, ?_, ?_⟩, h9⟩
  · show (NetcdfBand.openNodata v.raster).getD _ = _
    rw [h4]; rfl
  · show v.scale.getD 1 = _
    rw [h6]; rfl
  · show v.offset.getD 0 = _
    rw [h7]; rfl
  · show v.units.getD "" = _
    rw [h8]; rfl
  · show (v.raster.chnum.map _).map Prod.fst = _
    rw [h5]
    cases b.raster.channel <;> rfl
  · intro c name w t hc hm hs
    show v.raster.chnum.map (fun c : Nat => (c, Facts.channelName s c)) = _
    rw [h5, hc, Option.map_some, channelName_seviri hs hm]

theorem sizeFrom_written {nx ny : Nat} {bs : List Band} {vs : List Var} (h : List.Forall₂ (Written nx ny) bs vs) (hne : bs ≠ []) :
    sizeFrom vs = (nx, ny) := by
  cases h with
  | nil => exact absurd rfl hne
  | @cons b v bs vs h hs =>
    obtain ⟨n, d, r, s, o, u⟩ := v
    have hd : d = [1, ny, nx] := h.2.1
    subst hd
    rfl

end Msat.NetcdfFileLemmas
