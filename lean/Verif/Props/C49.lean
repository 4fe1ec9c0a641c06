import Verif.Spec.Sources
import Mathlib.Tactic.Common

/-
C49 Reflectance sources can be added in any order.
C70 Blocks of reflectances.
-/
namespace Msat.Props
open Msat Sources SourcesSpec

/-- The object after a source with these data has been accepted. -/
def Holds (p : Proxy) (c : Common) : Prop :=
  p.hasSources = true ∧ p.srs = some c.srs ∧ p.gt = c.gt ∧ p.datetime = c.datetime ∧ p.sx = c.sx ∧ p.sy = c.sy

theorem addInfo_first (p : Proxy) (d : Dataset) (c : Common) (hd : Has d c) (h1 : p.hasSources = false) (h2 : p.srs = none) :
    ∃ q, addInfo p d = (q, .ok ()) ∧ Holds q c ∧ q.sources = p.sources ∧ q.metadata = d.metadata := by
  obtain ⟨d1, d2, d3, d4, d5, d6⟩ := hd
  obtain ⟨md, hmd⟩ := Option.isSome_iff_exists.1 d6
  unfold addInfo moreInfo firstInfo
  rw [h2, d1, d2, d3, hmd]
  simp only [h1]
  exact ⟨_, rfl, ⟨rfl, rfl, rfl, rfl, d4, d5⟩, rfl, rfl⟩

theorem addInfo_next (p : Proxy) (d : Dataset) (c : Common) (hd : Has d c) (hp : Holds p c) : addInfo p d = (p, .ok ()) := by
  obtain ⟨d1, d2, d3, d4, d5, d6⟩ := hd
  obtain ⟨p1, p2, p3, p4, p5, p6⟩ := hp
  unfold addInfo moreInfo nextInfo
  rw [p2, d2, d3, d1]
  simp only [p1, if_true, p3, p4, p5, p6, d4, d5]
  simp

theorem used_some {b : Band} {c : Int} (h : used b = some c) : b.channel = some c ∧ 1 ≤ c ∧ c ≤ 12 := by
  unfold used at h
  cases hc : b.channel with
  | none => rw [hc] at h; cases h
  | some x =>
    rw [hc] at h
    dsimp only at h
    split at h
    · cases h
    · rename_i hx
      cases h
      exact ⟨rfl, by omega, by omega⟩

theorem used_of {b : Band} {c : Int} (h : b.channel = some c) (h1 : 1 ≤ c) (h2 : c ≤ 12) : used b = some c := by
  unfold used
  rw [h]
  dsimp only
  rw [if_neg (by omega)]

/-- Bands from a position on, once a source has been accepted. -/
theorem addBands_holds (d : Dataset) (c : Common) (hd : Has d c) : ∀ (bs : List Band) (i : Nat) (p : Proxy), Holds p c →
    ∃ q, addBands p d i bs = (q, .ok ()) ∧ Holds q c ∧ q.metadata = p.metadata ∧
      ∀ x : Int, 1 ≤ x → x ≤ 12 → q.sources x =
        (((bs.zipIdx i).filter fun y => y.1.channel = some x).getLast?.map fun y => (⟨d.id, y.2, y.1.usable⟩ : Ref)).or
          (p.sources x)
  | [], i, p, hp => ⟨p, rfl, hp, rfl, fun x _ _ => rfl⟩
  | b :: bs, i, p, hp => by
    unfold addBands
    cases hu : used b with
    | none =>
      dsimp only
      obtain ⟨q, e, h1, h2, h3⟩ := addBands_holds d c hd bs (i + 1) p hp
      refine ⟨q, e, h1, h2, fun x x1 x2 => ?_⟩
      rw [h3 x x1 x2, List.zipIdx_cons, List.filter_cons_of_neg]
      simp only [decide_eq_true_eq]
      intro hc
      rw [used_of hc x1 x2] at hu
      cases hu
    | some y =>
      obtain ⟨hc, _, _⟩ := used_some hu
      dsimp only
      rw [addInfo_next p d c hd hp]
      dsimp only
      obtain ⟨q, e, h1, h2, h3⟩ := addBands_holds d c hd bs (i + 1)
        { p with sources := fun x => if x = y then some ⟨d.id, i, b.usable⟩ else p.sources x } hp
      refine ⟨q, e, h1, h2, fun x x1 x2 => ?_⟩
      rw [h3 x x1 x2, List.zipIdx_cons]
      by_cases hx : x = y
      · subst hx
        rw [List.filter_cons_of_pos (by simp [hc]), List.getLast?_cons]
        dsimp only
        rw [if_pos rfl]
        cases hl : (List.filter (fun y => decide (y.1.channel = some x)) (bs.zipIdx (i + 1))).getLast? <;> rfl
      · rw [List.filter_cons_of_neg (by simpa [hc] using fun h : y = x => hx h.symm)]
        dsimp only
        rw [if_neg hx]

theorem lastBand_none (d : Dataset) (x : Int) (x1 : 1 ≤ x) (x2 : x ≤ 12) (h : ¬ Provides d x) : lastBand d x = none := by
  unfold lastBand
  rw [List.filter_eq_nil_iff.2]
  · rfl
  · rintro ⟨b, i⟩ hb
    simp only [decide_eq_true_eq]
    intro hc
    obtain ⟨_, _, hm⟩ := List.mem_zipIdx hb
    exact h ⟨x1, x2, b, by rw [hm]; exact List.getElem_mem _, hc⟩

theorem lastBand_some (d : Dataset) (x : Int) (h : Provides d x) : (lastBand d x).isSome = true := by
  obtain ⟨_, _, b, hb, hc⟩ := h
  unfold lastBand
  rw [Option.isSome_map, List.getLast?_isSome]
  intro he
  rw [List.filter_eq_nil_iff] at he
  obtain ⟨i, hi, rfl⟩ := List.getElem_of_mem hb
  have := he (d.bands[i], 1 + i) (List.mem_iff_getElem.2 ⟨i, by simpa using hi, by simp⟩)
  simp [hc] at this

/-- A source with bands that are used, added to an object that has none, or has accepted others with the same data. -/
theorem addSource_ok (p : Proxy) (d : Dataset) (c : Common) (hd : Has d c) (hu : ∃ x, Provides d x)
    (hp : (p.hasSources = false ∧ p.srs = none) ∨ Holds p c) :
    ∃ q, addSource p d = (q, .ok ()) ∧ Holds q c ∧
      (p.hasSources = true → q.metadata = p.metadata) ∧ (p.hasSources = false → q.metadata = d.metadata) ∧
      ∀ x : Int, 1 ≤ x → x ≤ 12 → q.sources x = (lastBand d x).or (p.sources x) := by
  rcases hp with ⟨hp1, hp2⟩ | hp
  · -- the first band that is used brings the data in
    have key : ∀ (bs : List Band) (i : Nat), (∃ b ∈ bs, ∃ x, used b = some x) →
        ∃ q, addBands p d i bs = (q, .ok ()) ∧ Holds q c ∧ q.metadata = d.metadata ∧
          ∀ x : Int, 1 ≤ x → x ≤ 12 → q.sources x =
            (((bs.zipIdx i).filter fun y => y.1.channel = some x).getLast?.map fun y => (⟨d.id, y.2, y.1.usable⟩ : Ref)).or
              (p.sources x) := by
      intro bs
      induction bs with
      | nil => rintro i ⟨b, hb, _⟩; cases hb
      | cons b bs ih =>
        intro i hex
        cases hu : used b with
        | none =>
          unfold addBands
          rw [hu]
          dsimp only
          obtain ⟨q, e, h1, h2, h3⟩ := ih (i + 1) (by
            obtain ⟨b', hb', x, hx⟩ := hex
            rcases List.mem_cons.1 hb' with rfl | hb'
            · rw [hu] at hx; cases hx
            · exact ⟨b', hb', x, hx⟩)
          refine ⟨q, e, h1, h2, fun x x1 x2 => ?_⟩
          rw [h3 x x1 x2, List.zipIdx_cons, List.filter_cons_of_neg]
          simp only [decide_eq_true_eq]
          intro hc
          rw [used_of hc x1 x2] at hu
          cases hu
        | some y =>
          obtain ⟨q0, e0, hq0, hs0, hm0⟩ := addInfo_first p d c hd hp1 hp2
          -- from now on the object holds the data: as if it had before
          obtain ⟨q, e, h1, h2, h3⟩ := addBands_holds d c hd (b :: bs) i q0 hq0
          refine ⟨q, ?_, h1, by rw [h2, hm0], fun x x1 x2 => by rw [h3 x x1 x2, hs0]⟩
          rw [← e]
          conv_lhs => unfold addBands
          conv_rhs => unfold addBands
          rw [hu]
          dsimp only
          rw [e0, addInfo_next q0 d c hd hq0]
    obtain ⟨x, x1, x2, b, hb, hc⟩ := hu
    obtain ⟨q, e, h1, h2, h3⟩ := key d.bands 1 ⟨b, hb, x, used_of hc x1 x2⟩
    exact ⟨q, e, h1, fun h => (by rw [hp1] at h; cases h), fun _ => h2, h3⟩
  · obtain ⟨q, e, h1, h2, h3⟩ := addBands_holds d c hd d.bands 1 p hp
    exact ⟨q, e, h1, fun _ => h2, fun h => (by rw [hp.1] at h; cases h), h3⟩

theorem addAll_ok (c : Common) : ∀ (ds : List Dataset) (p : Proxy), (∀ d ∈ ds, Has d c ∧ ∃ x, Provides d x) → NoOverlap ds →
    ((p.hasSources = false ∧ p.srs = none) ∨ Holds p c) →
    ∃ q, addAll p ds = (q, .ok ()) ∧ (ds ≠ [] → Holds q c) ∧
      (∀ x, 1 ≤ x → x ≤ 12 → (∀ d ∈ ds, ¬ Provides d x) → q.sources x = p.sources x) ∧
      (∀ x, ∀ d ∈ ds, Provides d x → q.sources x = lastBand d x)
  | [], p, _, _, _ => ⟨p, rfl, fun h => absurd rfl h, fun _ _ _ _ => rfl, fun _ _ h => by cases h⟩
  | d :: ds, p, h, hn, hp => by
    obtain ⟨n1, n2⟩ := List.pairwise_cons.1 hn
    obtain ⟨q, e, h1, _, _, h3⟩ := addSource_ok p d c (h d (by simp)).1 (h d (by simp)).2 hp
    obtain ⟨r, er, i1, i2, i3⟩ := addAll_ok c ds q (fun d' hd' => h d' (List.mem_cons_of_mem _ hd')) n2 (.inr h1)
    have i1' : Holds r c := by
      by_cases hds : ds = []
      · subst hds
        have : r = q := by
          have := congrArg Prod.fst er
          exact this.symm
        rw [this]
        exact h1
      · exact i1 hds
    refine ⟨r, ?_, fun _ => i1', ?_, ?_⟩
    · unfold addAll
      rw [e]
      exact er
    · intro x x1 x2 hx
      rw [i2 x x1 x2 fun d' hd' => hx d' (List.mem_cons_of_mem _ hd'), h3 x x1 x2,
        lastBand_none d x x1 x2 (hx d (by simp))]
      rfl
    · intro x d' hd' hpx
      rcases List.mem_cons.1 hd' with rfl | hd'
      · rw [i2 x hpx.1 hpx.2.1 fun d'' hd'' => n1 d'' hd'' x hpx, h3 x hpx.1 hpx.2.1]
        have := lastBand_some d' x hpx
        cases hl : lastBand d' x with
        | none => rw [hl] at this; cases this
        | some r => rfl
      · exact i3 x d' hd' hpx

/-! ## C49 -/

/-- Sources with the same georeference, time and size, that provide different channels, can be added in any order: the
same bands are then used for all the channels, and the same georeference, time and size.  Missing for the full property: other
metadata. -/
theorem C49_any_order_partial (ds ds' : List Dataset) (hperm : ds.Perm ds') (c : Common) (hne : ds ≠ [])
    (h : ∀ d ∈ ds, Has d c ∧ ∃ x, Provides d x) (hn : NoOverlap ds) :
    ∃ q q', addAll {} ds = (q, .ok ()) ∧ addAll {} ds' = (q', .ok ()) ∧ Holds q c ∧ Holds q' c ∧
      (∀ x, 1 ≤ x → x ≤ 12 → q.sources x = q'.sources x) ∧
      ∀ x, ∀ d ∈ ds, Provides d x → q.sources x = lastBand d x := by
  have hn' : NoOverlap ds' := (hperm.pairwise_iff fun {a b} hab x hb ha => hab x ha hb).1 hn
  obtain ⟨q, e, h1, h2, h3⟩ := addAll_ok c ds {} h hn (.inl ⟨rfl, rfl⟩)
  obtain ⟨q', e', h1', h2', h3'⟩ := addAll_ok c ds' {} (fun d hd => h d (hperm.mem_iff.2 hd)) hn' (.inl ⟨rfl, rfl⟩)
  have hne' : ds' ≠ [] := by
    rintro rfl
    exact hne hperm.eq_nil
  refine ⟨q, q', e, e', h1 hne, h1' hne', ?_, h3⟩
  intro x x1 x2
  by_cases hx : ∃ d ∈ ds, Provides d x
  · obtain ⟨d, hd, hp⟩ := hx
    rw [h3 x d hd hp, h3' x d (hperm.mem_iff.1 hd) hp]
  · have hx : ∀ d ∈ ds, ¬ Provides d x := fun d hd hp => hx ⟨d, hd, hp⟩
    rw [h2 x x1 x2 hx, h2' x x1 x2 fun d hd => hx d (hperm.mem_iff.2 hd)]

/-- A source that differs from those that have been accepted in projection, geotransform, time or size is refused, whichever
came first, and nothing changes. -/
theorem C49_mismatch (p : Proxy) (c c' : Common) (hp : Holds p c) (d : Dataset) (hd : Has d c') (hu : ∃ x, Provides d x)
    (hne : c ≠ c') : ∃ m, addSource p d = (p, .throws m) := by
  obtain ⟨d1, d2, d3, d4, d5, d6⟩ := hd
  obtain ⟨p1, p2, p3, p4, p5, p6⟩ := hp
  have hinfo : ∃ m, addInfo p d = (p, .throws m) := by
    unfold addInfo moreInfo nextInfo
    rw [p2, d2, d3, d1]
    simp only [p1, if_true, p3, p4, p5, p6, d4, d5]
    by_cases h1 : c.srs = c'.srs
    swap
    · rw [if_pos (by simpa using h1)]; exact ⟨_, rfl⟩
    rw [if_neg (by simpa using h1)]
    by_cases h2 : c.gt = c'.gt
    swap
    · rw [if_pos h2]; exact ⟨_, rfl⟩
    rw [if_neg (by simpa using h2)]
    by_cases h3 : c.datetime = c'.datetime
    swap
    · rw [if_pos h3]; exact ⟨_, rfl⟩
    rw [if_neg (by simpa using h3)]
    by_cases h4 : c.sx = c'.sx
    swap
    · rw [if_pos h4]; exact ⟨_, rfl⟩
    rw [if_neg (by simpa using h4)]
    by_cases h5 : c.sy = c'.sy
    swap
    · rw [if_pos h5]; exact ⟨_, rfl⟩
    exfalso
    apply hne
    cases c; cases c'
    simp_all
  obtain ⟨m, hm⟩ := hinfo
  refine ⟨m, ?_⟩
  have key : ∀ (bs : List Band) (i : Nat), (∃ b ∈ bs, ∃ x, used b = some x) → addBands p d i bs = (p, .throws m) := by
    intro bs
    induction bs with
    | nil => rintro i ⟨b, hb, _⟩; cases hb
    | cons b bs ih =>
      intro i hex
      unfold addBands
      cases hu : used b with
      | none =>
        exact ih (i + 1) (by
          obtain ⟨b', hb', x, hx⟩ := hex
          rcases List.mem_cons.1 hb' with rfl | hb'
          · rw [hu] at hx; cases hx
          · exact ⟨b', hb', x, hx⟩)
      | some y =>
        dsimp only
        rw [hm]
  obtain ⟨x, x1, x2, b, hb, hc⟩ := hu
  exact key d.bands 1 ⟨b, hb, x, used_of hc x1 x2⟩

/-- In particular, of two sources that do not match the second is refused, in either order. -/
theorem C49_mismatch_orders (d d' : Dataset) (c c' : Common) (hd : Has d c) (hd' : Has d' c') (hu : ∃ x, Provides d x)
    (hu' : ∃ x, Provides d' x) (hne : c ≠ c') :
    (∃ p m, addAll {} [d, d'] = (p, .throws m)) ∧ ∃ p m, addAll {} [d', d] = (p, .throws m) := by
  have key : ∀ (d d' : Dataset) (c c' : Common), Has d c → Has d' c' → (∃ x, Provides d x) → (∃ x, Provides d' x) → c ≠ c' →
      ∃ p m, addAll {} [d, d'] = (p, .throws m) := by
    intro d d' c c' hd hd' hu hu' hne
    obtain ⟨q, e, h1, _⟩ := addSource_ok {} d c hd hu (.inl ⟨rfl, rfl⟩)
    obtain ⟨m, hm⟩ := C49_mismatch q c c' h1 d' hd' hu' hne
    refine ⟨q, m, ?_⟩
    unfold addAll
    rw [e]
    show addAll q [d'] = _
    unfold addAll
    rw [hm]
  exact ⟨key d d' c c' hd hd' hu hu' hne, key d' d c' c hd' hd hu' hu (Ne.symm hne)⟩

/-- The channels that are needed for the reflectance of a channel. -/
def needed (channel : Int) : List Int :=
  if channel = 4 then [4, 9, 11] else if channel = 1 ∨ channel = 2 ∨ channel = 3 ∨ channel = 12 then [channel] else []

/-- The computation starts only if there are the bands of all the channels that are needed, and they are the ones it uses; for
other channels it does not start. -/
theorem C49_starts (channel : Int) (p : Proxy) (rs : List Ref) (h : initRasterband channel p = .ok rs) :
    needed channel ≠ [] ∧ rs.map some = (needed channel).map p.sources := by
  have hreq : ∀ x, require p x = (match p.sources x with | none => .throws "GDALRasterBand not found for channel" | some r => .ok r) :=
    fun _ => rfl
  unfold initRasterband at h
  unfold needed
  by_cases h1 : channel = 1 ∨ channel = 2 ∨ channel = 3 ∨ channel = 12
  · rw [if_pos h1] at h
    rw [if_neg (by omega), if_pos h1]
    refine ⟨by simp, ?_⟩
    cases hb : rasterBandBase p <;> simp only [hb, Outcome.ok_bind, Outcome.throws_bind, Outcome.ub_bind, Outcome.terminate_bind,
      Outcome.diverges_bind, reduceCtorEq] at h
    cases hr : p.sources channel <;> simp only [hreq, hr, Outcome.ok_bind, Outcome.throws_bind, reduceCtorEq] at h
    rename_i r
    cases hu : r.usable <;> simp [checkUsable, hu] at h
    rw [← h]
    simp [hr]
  · rw [if_neg h1] at h
    by_cases h4 : channel = 4
    · rw [if_pos h4] at h
      rw [if_pos h4]
      refine ⟨by simp, ?_⟩
      cases hb : rasterBandBase p <;> simp only [hb, Outcome.ok_bind, Outcome.throws_bind, Outcome.ub_bind, Outcome.terminate_bind,
        Outcome.diverges_bind, reduceCtorEq] at h
      cases hr4 : p.sources 4 <;> simp only [hreq, hr4, Outcome.ok_bind, Outcome.throws_bind, reduceCtorEq] at h
      cases hr9 : p.sources 9 <;> simp only [hr9, Outcome.ok_bind, Outcome.throws_bind, reduceCtorEq] at h
      cases hr11 : p.sources 11 <;> simp only [hr11, Outcome.ok_bind, Outcome.throws_bind, reduceCtorEq] at h
      rename_i r4 r9 r11
      cases hu4 : r4.usable <;> simp [checkUsable, hu4] at h
      cases hu9 : r9.usable <;> simp [hu9] at h
      cases hu11 : r11.usable <;> simp [hu11] at h
      rw [← h]
      simp [hr4, hr9, hr11]
    · rw [if_neg h4] at h
      cases h

/-- And it starts if they are there, with their metadata, scales and offsets, and the time of the sources is understood. -/
theorem C49_can_start (channel : Int) (p : Proxy) (hc : needed channel ≠ [])
    (h : ∀ x ∈ needed channel, ∃ r, p.sources x = some r ∧ r.usable = true) (hs : p.srs ≠ none)
    (ht : (Text.scanf timeFormat p.datetime).length = 6) : ∃ rs, initRasterband channel p = .ok rs := by
  have hb : rasterBandBase p = .ok () := by
    unfold rasterBandBase
    rw [if_neg (by simpa using ht), if_neg hs]
  unfold needed at hc h
  unfold initRasterband
  by_cases h4 : channel = 4
  · rw [if_pos h4] at h
    obtain ⟨r4, s4, u4⟩ := h 4 (by simp)
    obtain ⟨r9, s9, u9⟩ := h 9 (by simp)
    obtain ⟨r11, s11, u11⟩ := h 11 (by simp)
    rw [if_neg (by omega), if_pos h4, hb]
    refine ⟨[r4, r9, r11], ?_⟩
    simp [require, checkUsable, s4, s9, s11, u4, u9, u11]
  · rw [if_neg h4] at hc h
    by_cases h1 : channel = 1 ∨ channel = 2 ∨ channel = 3 ∨ channel = 12
    · rw [if_pos h1] at h
      obtain ⟨r, s, u⟩ := h channel (by simp)
      rw [if_pos h1, hb]
      refine ⟨[r], ?_⟩
      simp [require, checkUsable, s, u]
    · rw [if_neg h1] at hc
      exact absurd rfl hc

/-! ### What is wrong -/

/-- Sources of reflectances: if the first source is refused because it has no geotransform, its projection is kept; a second source with
another projection is then accepted, and its pixels are placed with the wrong projection. -/
theorem C49_violated_stale (a b : Dataset) (s : Nat) (c : Common) (ha : a.srs = some s) (hg : a.gt = none) (hua : ∃ x, Provides a x)
    (hb : Has b c) (x : Int) (u : Bool) (x1 : 1 ≤ x) (x2 : x ≤ 12) (hub : b.bands = [⟨some x, u⟩]) (hne : s ≠ c.srs) :
    ∃ p q m, addSource {} a = (p, .throws m) ∧ addSource p b = (q, .ok ()) ∧ q.srs = some s ∧ q.srs ≠ b.srs ∧ q.gt = c.gt ∧
      q.sources x = some ⟨b.id, 1, u⟩ := by
  have hinfo : addInfo {} a = (({ srs := some s } : Proxy), .throws "trying to add source without affine geotransform coefficients") := by
    unfold addInfo moreInfo
    rw [ha, hg]
  have key : ∀ (bs : List Band) (i : Nat), (∃ b ∈ bs, ∃ x, used b = some x) → addBands {} a i bs =
      (({ srs := some s } : Proxy), .throws "trying to add source without affine geotransform coefficients") := by
    intro bs
    induction bs with
    | nil => rintro i ⟨b, hb, _⟩; cases hb
    | cons b bs ih =>
      intro i hex
      unfold addBands
      cases hu : used b with
      | none =>
        exact ih (i + 1) (by
          obtain ⟨b', hb', x, hx⟩ := hex
          rcases List.mem_cons.1 hb' with rfl | hb'
          · rw [hu] at hx; cases hx
          · exact ⟨b', hb', x, hx⟩)
      | some y =>
        dsimp only
        rw [hinfo]
  obtain ⟨d1, d2, d3, d4, d5, d6⟩ := hb
  obtain ⟨md, hmd⟩ := Option.isSome_iff_exists.1 d6
  obtain ⟨x', x1', x2', b0, hb0, hc0⟩ := hua
  have h2 : ∃ q, addSource ({ srs := some s } : Proxy) b = (q, .ok ()) ∧ q.srs = some s ∧ q.gt = c.gt ∧
      q.sources x = some ⟨b.id, 1, u⟩ := by
    have hu : used ⟨some x, u⟩ = some x := used_of rfl x1 x2
    unfold addSource
    rw [hub]
    unfold addBands
    rw [hu]
    unfold addInfo moreInfo firstInfo
    dsimp only
    rw [d2, d3, hmd]
    exact ⟨_, rfl, rfl, rfl, by simp⟩
  obtain ⟨q, e, q1, q2, q3⟩ := h2
  exact ⟨_, q, _, key a.bands 1 ⟨b0, hb0, x', used_of hc0 x1' x2'⟩, e, q1,
    by rw [q1, d1]; intro h; exact hne (Option.some.inj h), q2, q3⟩

/-- Sources of reflectances: a second source without projection is not refused, the missing projection is dereferenced. -/
theorem C49_violated_no_projection (p : Proxy) (c : Common) (hp : Holds p c) (d : Dataset) (h : d.srs = none) (hg : d.gt.isSome = true)
    (ht : d.datetime.isSome = true) (hu : ∃ x, Provides d x) : addSource p d = (p, .ub) := by
  obtain ⟨g, hg⟩ := Option.isSome_iff_exists.1 hg
  obtain ⟨t, ht⟩ := Option.isSome_iff_exists.1 ht
  have hinfo : addInfo p d = (p, .ub) := by
    unfold addInfo moreInfo nextInfo
    rw [hp.2.1, hg, ht, h]
    simp only [hp.1, if_true]
  have key : ∀ (bs : List Band) (i : Nat), (∃ b ∈ bs, ∃ x, used b = some x) → addBands p d i bs = (p, .ub) := by
    intro bs
    induction bs with
    | nil => rintro i ⟨b, hb, _⟩; cases hb
    | cons b bs ih =>
      intro i hex
      unfold addBands
      cases hu : used b with
      | none =>
        exact ih (i + 1) (by
          obtain ⟨b', hb', x, hx⟩ := hex
          rcases List.mem_cons.1 hb' with rfl | hb'
          · rw [hu] at hx; cases hx
          · exact ⟨b', hb', x, hx⟩)
      | some y =>
        dsimp only
        rw [hinfo]
  obtain ⟨x, x1, x2, b, hb, hc⟩ := hu
  exact key d.bands 1 ⟨b, hb, x, used_of hc x1 x2⟩

/-- Sources of reflectances: the metadata of the result are those of the first source, so that they depend on the order if the
sources do not have the same. -/
theorem C49_violated_metadata (d d' : Dataset) (c : Common) (hd : Has d c) (hd' : Has d' c) (hu : ∃ x, Provides d x)
    (hu' : ∃ x, Provides d' x) (hne : d.metadata ≠ d'.metadata) :
    ∃ q q', addAll {} [d, d'] = (q, .ok ()) ∧ addAll {} [d', d] = (q', .ok ()) ∧ q.metadata ≠ q'.metadata := by
  have key : ∀ (d d' : Dataset), Has d c → Has d' c → (∃ x, Provides d x) → (∃ x, Provides d' x) →
      ∃ q, addAll {} [d, d'] = (q, .ok ()) ∧ q.metadata = d.metadata := by
    intro d d' hd hd' hu hu'
    obtain ⟨q, e, h1, _, h3, _⟩ := addSource_ok {} d c hd hu (.inl ⟨rfl, rfl⟩)
    obtain ⟨r, er, _, h5, _⟩ := addSource_ok q d' c hd' hu' (.inr h1)
    refine ⟨r, ?_, ?_⟩
    · unfold addAll
      rw [e]
      show addAll q [d'] = _
      unfold addAll
      rw [er]
      rfl
    · rw [h5 h1.1, h3 rfl]
  obtain ⟨q, e, h⟩ := key d d' hd hd' hu hu'
  obtain ⟨q', e', h'⟩ := key d' d hd' hd hu' hu
  exact ⟨q, q', e, e', by rw [h, h']; exact hne⟩

/-! ### A case -/

/-- `2006-06-21 11:45:00` -/
def srcTime : Bytes := [50, 48, 48, 54, 45, 48, 54, 45, 50, 49, 32, 49, 49, 58, 52, 53, 58, 48, 48]
def src4 : Dataset := ⟨1, some 7, some 8, some srcTime, some 1, 100, 200, [⟨some 4, true⟩]⟩
def src9 : Dataset := ⟨2, some 7, some 8, some srcTime, some 1, 100, 200, [⟨none, true⟩, ⟨some 9, true⟩, ⟨some 11, true⟩]⟩
def srcCommon : Common := ⟨7, 8, srcTime, 100, 200⟩

example : (∀ d ∈ [src4, src9], Has d srcCommon ∧ ∃ x, Provides d x) ∧ NoOverlap [src4, src9] ∧
    ∃ q, addAll {} [src9, src4] = (q, .ok ()) ∧
      initRasterband 4 q = .ok [⟨1, 1, true⟩, ⟨2, 2, true⟩, ⟨2, 3, true⟩] := by
  refine ⟨?_, ?_, ?_⟩
  · intro d hd
    simp only [List.mem_cons, List.not_mem_nil, or_false] at hd
    rcases hd with rfl | rfl
    · exact ⟨⟨rfl, rfl, rfl, rfl, rfl, rfl⟩, 4, by decide, by decide, _, List.mem_cons_self, rfl⟩
    · exact ⟨⟨rfl, rfl, rfl, rfl, rfl, rfl⟩, 9, by decide, by decide, _, List.mem_cons_of_mem _ List.mem_cons_self, rfl⟩
  · unfold NoOverlap
    rw [List.pairwise_cons]
    refine ⟨?_, by simp⟩
    intro b hb x hx hx'
    simp only [List.mem_cons, List.not_mem_nil, or_false] at hb
    subst hb
    obtain ⟨_, _, b1, m1, e1⟩ := hx
    obtain ⟨_, _, b2, m2, e2⟩ := hx'
    simp only [src4, src9, List.mem_cons, List.not_mem_nil, or_false] at m1 m2
    subst m1
    rcases m2 with rfl | rfl | rfl <;> simp at e1 e2 <;> omega
  · exact ⟨_, rfl, by decide +kernel⟩

/-- Other hypotheses are met: a source without geotransform. -/
example : ({ src4 with gt := none } : Dataset).srs = some 7 ∧ ∃ x, Provides { src4 with gt := none } x :=
  ⟨rfl, 4, by decide, by decide, _, List.mem_cons_self, rfl⟩

/-! ## C70 -/

/-- The number of blocks that cover a size. -/
def blocks (n b : Nat) : Nat := (n + b - 1) / b

/-- If the blocks of the source divide its size, all the blocks of the reflectance are read. -/
theorem C70_blocks_partial (sx sy bx bz : Nat) (hx : bx ∣ sx) (hy : bz ∣ sy) (hbx : 0 < bx) (hbz : 0 < bz) (i j : Nat)
    (hi : i < blocks sx bx) (hj : j < blocks sy bz) : readBlock sx sy bx bz i j = true := by
  have key : ∀ n b i : Nat, b ∣ n → 0 < b → i < blocks n b → i * b + b ≤ n := by
    rintro n b i ⟨k, rfl⟩ hb hi
    have e : blocks (b * k) b = k := by
      unfold blocks
      rw [show b * k + b - 1 = (b - 1) + b * k by omega, Nat.add_mul_div_left _ _ hb, Nat.div_eq_of_lt (by omega), Nat.zero_add]
    rw [e] at hi
    calc i * b + b = (i + 1) * b := by rw [Nat.add_mul, Nat.one_mul]
      _ ≤ k * b := Nat.mul_le_mul_right _ hi
      _ = b * k := Nat.mul_comm _ _
  simp only [readBlock, rasterIO, decide_eq_true_eq]
  exact ⟨key _ _ _ hx hbx hi, key _ _ _ hy hbz hj⟩

/-- Reflectances: if the blocks of the source do not divide its width, the last block of every row cannot be read, since the whole block is
asked for. -/
theorem C70_violated_edge (sx sy bx bz : Nat) (hbx : 0 < bx) (hx : ¬ bx ∣ sx) (j : Nat) :
    sx / bx < blocks sx bx ∧ readBlock sx sy bx bz (sx / bx) j = false := by
  have hm : 0 < sx % bx := Nat.pos_of_ne_zero fun h => hx (Nat.dvd_of_mod_eq_zero h)
  have hd := Nat.div_add_mod sx bx
  have hl := Nat.mod_lt sx hbx
  constructor
  · unfold blocks
    rw [Nat.lt_iff_add_one_le, Nat.le_div_iff_mul_le hbx, Nat.add_mul, Nat.one_mul, Nat.mul_comm]
    omega
  · simp only [readBlock, rasterIO, decide_eq_false_iff_not]
    rw [Nat.mul_comm]
    omega

example : blocks 3712 3712 = 1 ∧ readBlock 3712 3712 3712 1 0 3711 = true ∧ ¬ 256 ∣ 1000 ∧
    readBlock 1000 1000 256 256 3 0 = false := by decide

end Msat.Props
