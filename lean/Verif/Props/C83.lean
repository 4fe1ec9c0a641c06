import Verif.Spec.XritOpen
import Verif.Props.C49
import Mathlib.Tactic.Common
import Mathlib.Data.List.Perm.Basic

/-
C83 Opening xRIT images and images computed from them.
-/
namespace Msat.Props
open Msat Sources SourcesSpec XritOpen XritOpenSpec

theorem initRasterband_handled (ch : Int) (p : Proxy) : (∃ rs, initRasterband ch p = .ok rs) ∨ ∃ m, initRasterband ch p = .throws m := by
  have h1 : rasterBandBase p = .ok () ∨ ∃ m, rasterBandBase p = .throws m := by
    unfold rasterBandBase
    split
    · exact .inr ⟨_, rfl⟩
    · split
      · exact .inr ⟨_, rfl⟩
      · exact .inl rfl
  have h2 : ∀ x, (∃ r, require p x = .ok r) ∨ ∃ m, require p x = .throws m := by
    intro x
    unfold require
    split
    · exact .inr ⟨_, rfl⟩
    · exact .inl ⟨_, rfl⟩
  have h3 : ∀ r, checkUsable r = .ok () ∨ ∃ m, checkUsable r = .throws m := by
    intro r
    unfold checkUsable
    split
    · exact .inl rfl
    · exact .inr ⟨_, rfl⟩
  unfold initRasterband
  split
  · rcases h1 with e | ⟨m, e⟩ <;> rw [e]
    · rcases h2 ch with ⟨r, e⟩ | ⟨m, e⟩ <;> simp only [Outcome.ok_bind, Outcome.throws_bind, e]
      · rcases h3 r with e | ⟨m, e⟩ <;> rw [e]
        · exact .inl ⟨_, rfl⟩
        · exact .inr ⟨_, rfl⟩
      · exact .inr ⟨_, rfl⟩
    · exact .inr ⟨_, rfl⟩
  · split
    · rcases h1 with e | ⟨m, e⟩ <;> rw [e]
      · rcases h2 4 with ⟨r4, e⟩ | ⟨m, e⟩ <;> simp only [Outcome.ok_bind, Outcome.throws_bind, e]
        · rcases h2 9 with ⟨r9, e⟩ | ⟨m, e⟩ <;> simp only [Outcome.ok_bind, Outcome.throws_bind, e]
          · rcases h2 11 with ⟨r11, e⟩ | ⟨m, e⟩ <;> simp only [Outcome.ok_bind, Outcome.throws_bind, e]
            · rcases h3 r4 with e | ⟨m, e⟩ <;> simp only [Outcome.ok_bind, Outcome.throws_bind, e]
              · rcases h3 r9 with e | ⟨m, e⟩ <;> simp only [Outcome.ok_bind, Outcome.throws_bind, e]
                · rcases h3 r11 with e | ⟨m, e⟩ <;> simp only [Outcome.ok_bind, Outcome.throws_bind, e]
                  · exact .inl ⟨_, rfl⟩
                  · exact .inr ⟨_, rfl⟩
                · exact .inr ⟨_, rfl⟩
              · exact .inr ⟨_, rfl⟩
            · exact .inr ⟨_, rfl⟩
          · exact .inr ⟨_, rfl⟩
        · exact .inr ⟨_, rfl⟩
      · exact .inr ⟨_, rfl⟩
    · exact .inr ⟨_, rfl⟩

/-- What a source that is an image does to a reflectance dataset. -/
theorem addSource_image (r : Rds) (c : Common) (ch : Int) (d : Dataset) (hd : IsImage c ch d)
    (hr : (r.proxy.hasSources = false ∧ r.proxy.srs = none) ∨ Holds r.proxy c) (hn : d.id ∉ r.owned) :
    ∃ p, r.addSource d = (⟨p, d.id :: r.owned⟩, .ok ()) ∧ Holds p c ∧
      ∀ x, p.sources x = if x = ch then some ⟨d.id, 1, true⟩ else r.proxy.sources x := by
  obtain ⟨h1, h2, h3, h4, h5⟩ := hd
  have hu : used ⟨some ch, true⟩ = some ch := used_of rfl h3 h4
  unfold Rds.addSource
  rw [h2]
  unfold Rds.addBands
  rw [hu]
  dsimp only
  rcases hr with ⟨a, b⟩ | hr
  · obtain ⟨q, e, hq, hs, _⟩ := addInfo_first r.proxy d c h1 a b
    rw [e]
    dsimp only
    rw [if_neg hn]
    refine ⟨_, rfl, hq, fun x => ?_⟩
    dsimp only
    rw [hs]
  · rw [addInfo_next r.proxy d c h1 hr]
    dsimp only
    rw [if_neg hn]
    exact ⟨_, rfl, hr, fun x => rfl⟩

/-- The sources of a reflectance dataset belong to it. -/
def SourcesOwned (r : Rds) : Prop := ∀ x s, r.proxy.sources x = some s → s.ds ∈ r.owned

theorem addSources_images (c : Common) : ∀ (ds : List (Int × Dataset)) (r : Rds) (h : Heap), (∀ p ∈ ds, IsImage c p.1 p.2) →
    ((r.proxy.hasSources = false ∧ r.proxy.srs = none) ∨ Holds r.proxy c) → SourcesOwned r →
    (r.owned.reverse ++ ds.map fun p => p.2.id).Nodup →
    ∃ r', addSources r (ds.map Prod.snd) h = (h, .ok r') ∧ r'.owned = (ds.map fun p => p.2.id).reverse ++ r.owned ∧ SourcesOwned r' ∧
      (ds ≠ [] → Holds r'.proxy c) ∧
      (∀ x, r'.proxy.sources x = ((ds.reverse.find? fun p => p.1 = x).map fun p => (⟨p.2.id, 1, true⟩ : Ref)).or (r.proxy.sources x))
  | [], r, h, _, _, hs, _ => ⟨r, rfl, rfl, hs, fun h => absurd rfl h, fun x => rfl⟩
  | (ch, d) :: ds, r, h, hd, hr, hs, hn => by
    have hn1 : d.id ∉ r.owned := by
      intro hm
      rw [List.nodup_append] at hn
      exact hn.2.2 _ (List.mem_reverse.mpr hm) d.id (List.mem_cons_self ..) rfl
    obtain ⟨p, e, hp, hsrc⟩ := addSource_image r c ch d (hd _ (List.mem_cons_self ..)) hr hn1
    have hs' : SourcesOwned ⟨p, d.id :: r.owned⟩ := by
      intro x s hx
      change p.sources x = some s at hx
      rw [hsrc] at hx
      split at hx
      · cases hx
        exact List.mem_cons_self ..
      · exact List.mem_cons_of_mem _ (hs x s hx)
    have hrec := addSources_images c ds ⟨p, d.id :: r.owned⟩ h (fun q hq => hd q (List.mem_cons_of_mem _ hq)) (.inr hp) hs' (by
      simpa using hn)
    obtain ⟨r', e', o', s', h', x'⟩ := hrec
    refine ⟨r', ?_, ?_, s', fun _ => ?_, fun x => ?_⟩
    · rw [List.map_cons]
      unfold addSources
      rw [e]
      exact e'
    · rw [o']
      simp
    · cases ds with
      | nil =>
        rw [List.map_nil] at e'
        unfold addSources at e'
        cases e'
        exact hp
      | cons q qs => exact h' (by simp)
    · rw [x', List.reverse_cons, List.find?_append]
      dsimp only
      rw [hsrc]
      cases hf : ds.reverse.find? fun p => decide (p.1 = x) with
      | some q => simp
      | none =>
        by_cases hx : x = ch
        · subst hx; simp
        · have : ¬ ch = x := fun h => hx h.symm
          simp [hx, this]

/-- Reflectances of images: the product owns its sources, or they are released. -/
theorem reflectance_images (c : Common) (ch : Int) (ds : List (Int × Dataset)) (hd : ∀ p ∈ ds, IsImage c p.1 p.2)
    (hn : (ds.map fun p => p.2.id).Nodup) (h : Heap) (before : List Nat)
    (hl : h.live = (ds.map fun p => p.2.id).reverse ++ before) :
    NothingLost ⟨h.next, before⟩ (reflectance ch (ds.map Prod.snd) h) := by
  obtain ⟨r, e, ho, hs, _, _⟩ := addSources_images c ds {} h hd (.inl ⟨rfl, rfl⟩) (fun x s hx => by cases hx) (by simpa using hn)
  have ho : r.owned = (ds.map fun p => p.2.id).reverse := by rw [ho]; exact List.append_nil _
  unfold reflectance
  rw [e]
  dsimp only
  rcases initRasterband_handled ch r.proxy with ⟨rs, e2⟩ | ⟨m, e2⟩
  · rw [e2]
    dsimp only
    refine ⟨?_, ?_⟩
    · show h.live.Perm (r.owned ++ before)
      rw [hl, ho]
    · intro i hi
      change i ∈ rs.map Ref.ds at hi
      show i ∈ r.owned
      obtain ⟨s, hs1, rfl⟩ := List.mem_map.mp hi
      obtain ⟨_, h2⟩ := C49_starts ch r.proxy rs e2
      have hm : some s ∈ rs.map some := List.mem_map.mpr ⟨s, hs1, rfl⟩
      rw [h2] at hm
      obtain ⟨x, _, hx⟩ := List.mem_map.mp hm
      exact hs x s hx
  · rw [e2]
    dsimp only
    unfold release
    have key : ∀ (l : List Nat) (h : Heap), h.live = l ++ before → deleteAll l h = (⟨h.next, before⟩, .ok ()) := by
      intro l
      induction l with
      | nil => intro h hh; unfold deleteAll; cases h; simp_all
      | cons i is ih =>
        intro h hh
        unfold deleteAll
        rw [if_pos (by rw [hh]; simp)]
        rw [ih]
        dsimp only
        rw [hh]
        simp
    rw [key r.owned h (by rw [hl, ho])]
    exact rfl

theorem openDataset_cases (files : Files) (fa : Xrit.FileAccess) (h : Heap) :
    (∃ d, files fa = .opens d ∧ openDataset files fa h = (⟨h.next + 1, h.next :: h.live⟩, .ok (some { d with id := h.next }))) ∨
    openDataset files fa h = (⟨h.next + 1, h.live⟩, .ok none) ∨
    ∃ m, openDataset files fa h = (⟨h.next + 1, h.live⟩, .throws m) := by
  unfold openDataset
  cases hf : files fa with
  | raises => right; right; exact ⟨_, by simp [release, deleteAll]; rfl⟩
  | refuses => right; left; simp [release, deleteAll]
  | opens d => left; exact ⟨d, rfl, rfl⟩

theorem isImage_id (c : Common) (ch : Int) (d : Dataset) (i : Nat) (h : IsImage c ch d) : IsImage c ch { d with id := i } := h

theorem prototype_image (c : Common) (ch : Int) (d : Dataset) (hd : IsImage c ch d) : ∃ p, prototype d = .ok p ∧ Holds p c ∧ p.metadata = d.metadata := by
  obtain ⟨h1, h2, _⟩ := hd
  obtain ⟨q, e, hq, _, hm⟩ := addInfo_first {} d c h1 rfl rfl
  refine ⟨q, ?_, hq, hm⟩
  unfold prototype
  rw [e, h2]
  rfl

theorem timeOf_image (c : Common) (ch : Int) (d : Dataset) (hd : IsImage c ch d) : ∃ t, timeOf c.datetime = .ok t := by
  obtain ⟨_, _, _, _, h5⟩ := hd
  unfold timeOf
  generalize Text.scanf timeFormat c.datetime = l at h5
  match l, h5 with
  | [a, b, c, d, e, f], _ => exact ⟨_, rfl⟩

theorem newCosSolZa_image (c : Common) (ch : Int) (d : Dataset) (hd : IsImage c ch d) :
    ∃ p t, Holds p c ∧ p.metadata = d.metadata ∧ timeOf c.datetime = .ok t ∧ newCosSolZa d = .ok (.cosSolZa p t.1 t.2) := by
  obtain ⟨p, e, hp, hm⟩ := prototype_image c ch d hd
  obtain ⟨t, et⟩ := timeOf_image c ch d hd
  refine ⟨p, t, hp, hm, et, ?_⟩
  unfold newCosSolZa
  rw [e, Outcome.ok_bind, hp.2.2.2.1, et]
  rfl

theorem newJday_image (c : Common) (ch : Int) (d : Dataset) (hd : IsImage c ch d) :
    ∃ p t, Holds p c ∧ p.metadata = d.metadata ∧ timeOf c.datetime = .ok t ∧ newJday d = .ok (.jday p t.1) := by
  obtain ⟨p, e, hp, hm⟩ := prototype_image c ch d hd
  obtain ⟨t, et⟩ := timeOf_image c ch d hd
  refine ⟨p, t, hp, hm, et, ?_⟩
  unfold newJday
  rw [e, Outcome.ok_bind, hp.2.2.2.1, et]
  rfl

theorem newSatZa_image (c : Common) (ch : Int) (d : Dataset) (hd : IsImage c ch d) :
    ∃ p, Holds p c ∧ p.metadata = d.metadata ∧ newSatZa d = .ok (.satZa p) := by
  obtain ⟨p, e, hp, hm⟩ := prototype_image c ch d hd
  refine ⟨p, hp, hm, ?_⟩
  unfold newSatZa
  rw [e]
  rfl

theorem addExtras_image (c : Common) (ch : Int) (d : Dataset) (hd : IsImage c ch d) (compute : Option Bytes)
    (h4 : compute = some (str "reflectance") → ch ≠ 4) (h : Heap) (before : List Nat) (hl : h.live = d.id :: before) (n : Nat) :
    NothingLost ⟨n, before⟩ (addExtras compute d h) := by
  have hrel : ∀ (p : Product), owns p = [] → reads p = [] → NothingLost ⟨n, before⟩ (release [d.id] (.ok (some p)) h) := by
    intro p hp hr
    simp only [release, deleteAll, hl, List.mem_cons_self, if_true, List.erase_cons_head]
    refine ⟨by rw [hp]; exact List.Perm.refl _, by rw [hr]; simp⟩
  unfold addExtras
  cases compute with
  | none => exact ⟨by simp [owns, hl], by simp [owns, reads]⟩
  | some val =>
    dsimp only
    split
    · rename_i hv
      rw [hd.2.1]
      dsimp only
      rw [if_neg (h4 (by rw [hv]))]
      exact reflectance_images c ch [(ch, d)] (by simpa using hd) (by simp) h before (by simpa using hl)
    · split
      · obtain ⟨p, _, _, e⟩ := newSatZa_image c ch d hd
        unfold deriveFrom
        rw [e]
        exact hrel _ rfl rfl
      · split
        · obtain ⟨p, t, _, _, _, e⟩ := newCosSolZa_image c ch d hd
          unfold deriveFrom
          rw [e]
          exact hrel _ rfl rfl
        · split
          · obtain ⟨p, t, _, _, _, e⟩ := newJday_image c ch d hd
            unfold deriveFrom
            rw [e]
            exact hrel _ rfl rfl
          · simp only [release, deleteAll, hl, List.mem_cons_self, if_true, List.erase_cons_head]
            exact rfl

theorem openOne_lost (files : Files) (fa : Xrit.FileAccess) (c : Common) (hf : ∀ d, files fa = .opens d → ∃ ch, IsImage c ch d)
    (k : Dataset → Run (Option Product)) (h : Heap)
    (hk : ∀ ch d n, files fa = .opens d → IsImage c ch d →
      NothingLost h (k { d with id := n } ⟨n + 1, n :: h.live⟩)) :
    NothingLost h (openOne files fa k h) := by
  unfold openOne
  rcases openDataset_cases files fa h with ⟨d, e1, e⟩ | e | ⟨m, e⟩
  · rw [e]
    obtain ⟨ch, hc⟩ := hf d e1
    exact hk ch d h.next e1 hc
  · rw [e]; exact rfl
  · rw [e]; exact rfl

theorem nothingLost_next {h : Heap} {n : Nat} {r : Heap × Outcome (Option Product)} (hh : NothingLost ⟨n, h.live⟩ r) : NothingLost h r := by
  obtain ⟨h', o⟩ := r
  match o, hh with
  | .ok (some p), hh => exact hh
  | .ok none, hh => exact hh
  | .throws m, hh => exact hh

theorem openThree_lost (files : Files) (fa : Xrit.FileAccess) (c : Common)
    (hf : ∀ chan d, files (channelOf fa chan) = .opens d → ∃ ch, IsImage c ch d) (h : Heap) :
    NothingLost h (openThree files fa h) := by
  unfold openThree
  rcases openDataset_cases files fa h with ⟨d1, f1, e⟩ | e | ⟨m, e⟩
  · obtain ⟨c1, i1⟩ := hf fa.productid2 d1 f1
    rw [e]
    dsimp only
    rcases openDataset_cases files (Xrit.withChannel fa (str "IR_108")) ⟨h.next + 1, h.next :: h.live⟩ with ⟨d2, f2, e⟩ | e | ⟨m, e⟩
    · obtain ⟨c2, i2⟩ := hf _ d2 f2
      rw [e]
      dsimp only
      rcases openDataset_cases files (Xrit.withChannel fa (str "IR_134")) ⟨h.next + 1 + 1, (h.next + 1) :: h.next :: h.live⟩
        with ⟨d3, f3, e⟩ | e | ⟨m, e⟩
      · obtain ⟨c3, i3⟩ := hf _ d3 f3
        rw [e]
        dsimp only
        refine nothingLost_next (reflectance_images c 4
          [(c1, { d1 with id := h.next }), (c2, { d2 with id := h.next + 1 }), (c3, { d3 with id := h.next + 1 + 1 })] ?_ ?_ _ h.live ?_)
        · intro p hp
          simp only [List.mem_cons, List.not_mem_nil, or_false] at hp
          rcases hp with rfl | rfl | rfl
          · exact i1
          · exact i2
          · exact i3
        · simp
          omega
        · rfl
      · rw [e]
        simp [release, deleteAll]
        exact rfl
      · rw [e]
        simp [release, deleteAll]
        exact rfl
    · rw [e]
      simp [release, deleteAll]
      exact rfl
    · rw [e]
      simp [release, deleteAll]
      exact rfl
  · rw [e]; exact rfl
  · rw [e]; exact rfl

/-- Opening an xRIT image, or one that is computed from xRIT images, loses nothing: when it is not opened, whatever the reason, all the
datasets that were opened on the way are closed again, each of them once; when it is, the new dataset owns those that it reads.  Missing:
reflectance of IR_039 with the option MSAT_COMPUTE, and images of the same name whose georeference is not the same. -/
theorem C83_nothing_lost_partial (files : Files) (name : Bytes) (compute : Option Bytes) (h : Heap) (c : Common)
    (hn : (Xrit.parse name).Handled)
    (hf : ∀ fa chan d, Xrit.parse name = .ok fa → files (channelOf fa chan) = .opens d → ∃ ch, IsImage c ch d)
    (h4 : compute = some (str "reflectance") → ∀ fa d, files fa = .opens d → d.bands ≠ [⟨some 4, true⟩]) :
    NothingLost h (xritOpen files name compute h) := by
  unfold xritOpen
  split
  · exact rfl
  · cases hp : Xrit.parse name with
    | ok fa =>
      dsimp only
      have hf := fun chan d => hf fa chan d hp
      cases hs : suffix fa.productid2 with
      | none =>
        dsimp only
        refine openOne_lost files fa c (fun d e => hf fa.productid2 d e) _ h ?_
        intro ch d n e hd
        exact nothingLost_next (addExtras_image c ch { d with id := n } hd compute
          (fun hc h' => h4 hc fa d e (by rw [hd.2.1, h'])) _ h.live rfl n)
      | some ch =>
        dsimp only
        split
        · split
          · exact openThree_lost files { fa with productid2 := fa.productid2.dropLast } c (fun chan d e => hf chan d e) h
          · unfold openReflectance
            refine openOne_lost files _ c (fun d e => hf _ d e) _ h ?_
            intro ch d n e hd
            have hd' : IsImage c ch { d with id := n } := hd
            have hi : ({ d with id := n } : Dataset).id = n := rfl
            generalize ({ d with id := n } : Dataset) = d' at hd' hi
            rw [hd'.2.1]
            exact nothingLost_next (reflectance_images c ch [(ch, d')]
              (fun p hp => by rw [List.mem_singleton.mp hp]; exact hd') (by simp) ⟨n + 1, n :: h.live⟩ h.live (by simp [hi]))
        · unfold openAngle
          refine openOne_lost files _ c (fun d e => hf _ d e) _ h ?_
          intro ch d n e hd
          obtain ⟨p, t, _, _, _, e2⟩ := newCosSolZa_image c ch { d with id := n } hd
          dsimp only
          rw [e2]
          simp only [release, deleteAll, List.mem_cons_self, if_true, List.erase_cons_head]
          exact ⟨List.Perm.refl _, by simp [reads]⟩
    | throws m => exact rfl
    | ub => rw [hp] at hn; exact absurd hn id
    | terminate => rw [hp] at hn; exact absurd hn id
    | diverges => rw [hp] at hn; exact absurd hn id

/-! ### What is opened -/

theorem suffix_none {p : Bytes} (h : ¬ Asks p) : suffix p = none := by
  unfold suffix
  rcases List.eq_nil_or_concat p with rfl | ⟨q, c, rfl⟩
  · rfl
  · rw [List.concat_eq_append, List.getLast?_append]
    show (if c = 114 ∨ c = 97 then some c else none) = none
    rw [if_neg]
    rintro (rfl | rfl)
    · exact h ⟨q, .inl (by rw [List.concat_eq_append]; rfl)⟩
    · exact h ⟨q, .inr (by rw [List.concat_eq_append]; rfl)⟩

theorem suffix_r (p : Bytes) : suffix (p ++ str "r") = some 114 ∧ (p ++ str "r").dropLast = p := by
  constructor
  · unfold suffix
    rw [List.getLast?_append]
    rfl
  · exact List.dropLast_concat ..

theorem suffix_a (p : Bytes) : suffix (p ++ str "a") = some 97 ∧ (p ++ str "a").dropLast = p := by
  constructor
  · unfold suffix
    rw [List.getLast?_append]
    rfl
  · exact List.dropLast_concat ..

theorem openDataset_opens (files : Files) (fa : Xrit.FileAccess) (h : Heap) (d : Dataset) (hf : files fa = .opens d) :
    openDataset files fa h = (⟨h.next + 1, h.next :: h.live⟩, .ok (some { d with id := h.next })) := by
  unfold openDataset
  rw [hf]

/-- A name without suffix: the image is opened, and then the option is looked at. -/
theorem xritOpen_plain (files : Files) (name : Bytes) (fa : Xrit.FileAccess) (hn : Named name fa) (ha : ¬ Asks fa.productid2) (d : Dataset)
    (hf : files fa = .opens d) (compute : Option Bytes) (h : Heap) :
    xritOpen files name compute h = addExtras compute { d with id := h.next } ⟨h.next + 1, h.next :: h.live⟩ := by
  unfold xritOpen
  rw [hn.1, hn.2]
  simp only [suffix_none ha, Bool.not_true]
  unfold openOne
  rw [openDataset_opens files fa h d hf]
  rfl

/-- A name without suffix and without options opens the image. -/
theorem C83_image (files : Files) (name : Bytes) (fa : Xrit.FileAccess) (hn : Named name fa) (ha : ¬ Asks fa.productid2) (d : Dataset)
    (hf : files fa = .opens d) (h : Heap) : (xritOpen files name none h).2 = .ok (some (.image { d with id := h.next })) := by
  rw [xritOpen_plain files name fa hn ha d hf]
  rfl

/-- A reflectance that can be computed. -/
theorem reflectance_ok (c : Common) (ch : Int) (ds : List (Int × Dataset)) (hne : ds ≠ []) (hd : ∀ p ∈ ds, IsImage c p.1 p.2)
    (hn : (ds.map fun p => p.2.id).Nodup) (h : Heap) (hc : needed ch ≠ [])
    (hs : ∀ x ∈ needed ch, ∃ p, ds.reverse.find? (fun p => p.1 = x) = some p) :
    ∃ r rs, reflectance ch (ds.map Prod.snd) h = (h, .ok (some (.reflectance ch r rs))) ∧ Holds r.proxy c ∧
      rs.map some = (needed ch).map fun x => (ds.reverse.find? fun p => p.1 = x).map fun p => (⟨p.2.id, 1, true⟩ : Ref) := by
  obtain ⟨r, e, ho, _, hh, hx⟩ := addSources_images c ds {} h hd (.inl ⟨rfl, rfl⟩) (fun x s hx => by cases hx) (by simpa using hn)
  have hp := hh hne
  obtain ⟨rs, e2⟩ := C49_can_start ch r.proxy hc (fun x hm => by
    obtain ⟨p, hf⟩ := hs x hm
    refine ⟨⟨p.2.id, 1, true⟩, ?_, rfl⟩
    rw [hx, hf]
    rfl) (by rw [hp.2.1]; simp) (by
      rw [hp.2.2.2.1]
      obtain ⟨p, hm⟩ := List.exists_mem_of_ne_nil ds hne
      exact (hd p hm).2.2.2.2)
  refine ⟨r, rs, ?_, hp, ?_⟩
  · unfold reflectance
    rw [e]
    dsimp only
    rw [e2]
  · rw [(C49_starts ch r.proxy rs e2).2]
    apply List.map_congr_left
    intro x hm
    rw [hx]
    obtain ⟨p, hf⟩ := hs x hm
    rw [hf]
    rfl

/-- Reflectance of a solar channel: asked with the suffix `r`, or with MSAT_COMPUTE=reflectance, it is computed from the image of that
channel, and has the georeference, date and size of it. -/
theorem C83_reflectance (files : Files) (name name' : Bytes) (fa : Xrit.FileAccess) (hn : Named name fa) (ha : ¬ Asks fa.productid2)
    (hn' : Named name' (channelOf fa (fa.productid2 ++ str "r"))) (h39 : fa.productid2 ≠ str "IR_039") (d : Dataset) (hf : files fa = .opens d)
    (c : Common) (ch : Int) (hd : IsImage c ch d) (hc : ch = 1 ∨ ch = 2 ∨ ch = 3 ∨ ch = 12) (h : Heap) :
    ∃ r, (xritOpen files name' none h).2 = .ok (some (.reflectance ch r [⟨h.next, 1, true⟩])) ∧
      (xritOpen files name (some (str "reflectance")) h).2 = .ok (some (.reflectance ch r [⟨h.next, 1, true⟩])) ∧ Holds r.proxy c := by
  have hd' : IsImage c ch { d with id := h.next } := hd
  have hne : needed ch = [ch] := by
    unfold needed
    rw [if_neg (by omega), if_pos hc]
  obtain ⟨r, rs, e, hp, hrs⟩ := reflectance_ok c ch [(ch, { d with id := h.next })] (by simp)
    (fun p hp => by rw [List.mem_singleton.mp hp]; exact hd') (by simp) ⟨h.next + 1, h.next :: h.live⟩ (by rw [hne]; simp)
    (fun x hx => by
      rw [hne, List.mem_singleton] at hx
      subst hx
      exact ⟨(x, { d with id := h.next }), by simp⟩)
  have hrs : rs = [⟨h.next, 1, true⟩] := by
    rw [hne] at hrs
    simp only [List.map_cons, List.map_nil, List.reverse_singleton, List.find?_cons, decide_true, Option.map_some] at hrs
    match rs, hrs with
    | [s], hrs => simpa using hrs
  subst hrs
  refine ⟨r, ?_, ?_, hp⟩
  · unfold xritOpen
    rw [hn'.1, hn'.2]
    have : channelOf fa fa.productid2 = fa := rfl
    simp only [channelOf, suffix_r, Bool.not_true, if_true]
    rw [if_neg h39]
    unfold openReflectance openOne
    rw [openDataset_opens files _ h d hf]
    dsimp only
    generalize ({ d with id := h.next } : Dataset) = D at hd' e ⊢
    rw [hd.2.1]
    dsimp only
    have e : reflectance ch [D] ⟨h.next + 1, h.next :: h.live⟩ = _ := e
    rw [e]
    rfl
  · rw [xritOpen_plain files name fa hn ha d hf]
    generalize ({ d with id := h.next } : Dataset) = D at hd' e ⊢
    unfold addExtras
    dsimp only
    rw [if_pos rfl, hd'.2.1]
    dsimp only
    rw [if_neg (by omega)]
    have e : reflectance ch [D] ⟨h.next + 1, h.next :: h.live⟩ = _ := e
    rw [e]

/-- Reflectance of IR_039, with the suffix `r`: it is computed from IR_039, IR_108 and IR_134 of the same product. -/
theorem C83_reflectance39 (files : Files) (name : Bytes) (fa : Xrit.FileAccess) (hn : Named name (channelOf fa (str "IR_039r")))
    (d1 d2 d3 : Dataset) (f1 : files (channelOf fa (str "IR_039")) = .opens d1) (f2 : files (channelOf fa (str "IR_108")) = .opens d2)
    (f3 : files (channelOf fa (str "IR_134")) = .opens d3) (c : Common) (i1 : IsImage c 4 d1) (i2 : IsImage c 9 d2) (i3 : IsImage c 11 d3)
    (h : Heap) :
    ∃ r, (xritOpen files name none h).2 =
      .ok (some (.reflectance 4 r [⟨h.next, 1, true⟩, ⟨h.next + 1, 1, true⟩, ⟨h.next + 2, 1, true⟩])) ∧ Holds r.proxy c := by
  have hne : needed 4 = [4, 9, 11] := rfl
  obtain ⟨r, rs, e, hp, hrs⟩ := reflectance_ok c 4
    [(4, { d1 with id := h.next }), (9, { d2 with id := h.next + 1 }), (11, { d3 with id := h.next + 1 + 1 })] (by simp)
    (fun p hp => by
      simp only [List.mem_cons, List.not_mem_nil, or_false] at hp
      rcases hp with rfl | rfl | rfl
      · exact i1
      · exact i2
      · exact i3) (by simp; omega) ⟨h.next + 1 + 1 + 1, (h.next + 1 + 1) :: (h.next + 1) :: h.next :: h.live⟩ (by rw [hne]; simp)
    (fun x hx => by
      rw [hne] at hx
      simp only [List.mem_cons, List.not_mem_nil, or_false] at hx
      rcases hx with rfl | rfl | rfl
      · exact ⟨_, rfl⟩
      · exact ⟨_, rfl⟩
      · exact ⟨_, rfl⟩)
  have hrs : rs = [⟨h.next, 1, true⟩, ⟨h.next + 1, 1, true⟩, ⟨h.next + 2, 1, true⟩] := by
    have hrs : rs.map some = [some ⟨h.next, 1, true⟩, some ⟨h.next + 1, 1, true⟩, some ⟨h.next + 2, 1, true⟩] := hrs
    match rs, hrs with
    | [a, b, c], hrs => simpa using hrs
  subst hrs
  refine ⟨r, ?_, hp⟩
  unfold xritOpen
  rw [hn.1, hn.2]
  have hs : suffix (str "IR_039r") = some 114 ∧ (str "IR_039r").dropLast = str "IR_039" := ⟨by decide, by decide⟩
  simp only [channelOf, hs, Bool.not_true, if_true]
  unfold openThree
  have e1 := openDataset_opens files _ h d1 f1
  have e2 := openDataset_opens files _ ⟨h.next + 1, h.next :: h.live⟩ d2 f2
  have e3 := openDataset_opens files _ ⟨h.next + 1 + 1, (h.next + 1) :: h.next :: h.live⟩ d3 f3
  unfold channelOf at e1 e2 e3
  unfold Xrit.withChannel
  dsimp only at e1 e2 e3 ⊢
  rw [e1]
  dsimp only
  rw [e2]
  dsimp only
  rw [e3]
  dsimp only
  have e : reflectance 4 [{ d1 with id := h.next }, { d2 with id := h.next + 1 }, { d3 with id := h.next + 1 + 1 }] _ = _ := e
  rw [e]
  rfl

/-- The angles and the day: they have the georeference, date, size and metadata of the image.  The cosine can be asked with the suffix `a`
as well. -/
theorem C83_angles (files : Files) (name : Bytes) (fa : Xrit.FileAccess) (hn : Named name fa) (ha : ¬ Asks fa.productid2) (d : Dataset)
    (hf : files fa = .opens d) (c : Common) (ch : Int) (hd : IsImage c ch d) (h : Heap) :
    (∃ p, (xritOpen files name (some (str "sat_za")) h).2 = .ok (some (.satZa p)) ∧ Holds p c ∧ p.metadata = d.metadata) ∧
    (∃ p t, (xritOpen files name (some (str "cos_sol_za")) h).2 = .ok (some (.cosSolZa p t.1 t.2)) ∧ timeOf c.datetime = .ok t ∧
      Holds p c ∧ p.metadata = d.metadata ∧
      ∀ name', Named name' (channelOf fa (fa.productid2 ++ str "a")) →
        (xritOpen files name' none h).2 = .ok (some (.cosSolZa p t.1 t.2))) ∧
    (∃ p t, (xritOpen files name (some (str "jday")) h).2 = .ok (some (.jday p t.1)) ∧ timeOf c.datetime = .ok t ∧
      Holds p c ∧ p.metadata = d.metadata) ∧
    (∀ val, val ∉ [str "reflectance", str "sat_za", str "cos_sol_za", str "jday"] → (xritOpen files name (some val) h).2 = .ok none) := by
  have hd' : IsImage c ch { d with id := h.next } := hd
  have hrel : ∀ o : Outcome (Option Product), (release [h.next] o ⟨h.next + 1, h.next :: h.live⟩).2 = o := by
    intro o
    simp [release, deleteAll]
  refine ⟨?_, ?_, ?_, ?_⟩
  · obtain ⟨p, hp, hm, e⟩ := newSatZa_image c ch _ hd'
    refine ⟨p, ?_, hp, hm⟩
    rw [xritOpen_plain files name fa hn ha d hf]
    unfold addExtras deriveFrom
    dsimp only
    rw [if_neg (by decide), if_pos rfl, e]
    exact hrel _
  · obtain ⟨p, t, hp, hm, et, e⟩ := newCosSolZa_image c ch _ hd'
    refine ⟨p, t, ?_, et, hp, hm, ?_⟩
    · rw [xritOpen_plain files name fa hn ha d hf]
      unfold addExtras deriveFrom
      dsimp only
      rw [if_neg (by decide), if_neg (by decide), if_pos rfl, e]
      exact hrel _
    · intro name' hn'
      unfold xritOpen
      rw [hn'.1, hn'.2]
      simp only [channelOf, suffix_a, Bool.not_true]
      unfold openAngle openOne
      rw [openDataset_opens files _ h d hf]
      dsimp only
      rw [e]
      exact hrel _
  · obtain ⟨p, t, hp, hm, et, e⟩ := newJday_image c ch _ hd'
    refine ⟨p, t, ?_, et, hp, hm⟩
    rw [xritOpen_plain files name fa hn ha d hf]
    unfold addExtras deriveFrom
    dsimp only
    rw [if_neg (by decide), if_neg (by decide), if_neg (by decide), if_pos rfl, e]
    exact hrel _
  · intro val hv
    simp only [List.mem_cons, List.not_mem_nil, or_false, not_or] at hv
    rw [xritOpen_plain files name fa hn ha d hf]
    unfold addExtras
    dsimp only
    rw [if_neg hv.1, if_neg hv.2.1, if_neg hv.2.2.1, if_neg hv.2.2.2]
    exact hrel _

/-- The reflectance dataset that owns its sources keeps the same information, and refuses the same sources, as one that does not (C49);
it owns every source that it uses. -/
theorem C83_sources (r : Rds) (d : Dataset) : (r.addSource d).1.proxy = (addSource r.proxy d).1 ∧
    (r.addSource d).2 = (addSource r.proxy d).2 ∧
    ((r.addSource d).2 = .ok () → ∀ i, i ∈ (r.addSource d).1.owned ↔ i ∈ r.owned ∨ (i = d.id ∧ ∃ b ∈ d.bands, ∃ x, used b = some x)) := by
  have key : ∀ (bs : List Band) (r : Rds) (i : Nat), (r.addBands d i bs).1.proxy = (addBands r.proxy d i bs).1 ∧
      (r.addBands d i bs).2 = (addBands r.proxy d i bs).2 ∧
      ((r.addBands d i bs).2 = .ok () → ∀ n, n ∈ (r.addBands d i bs).1.owned ↔
        n ∈ r.owned ∨ (n = d.id ∧ ∃ b ∈ bs, ∃ x, used b = some x)) := by
    intro bs
    induction bs with
    | nil => intro r i; exact ⟨rfl, rfl, fun _ n => by simp [Rds.addBands]⟩
    | cons b bs ih =>
      intro r i
      unfold Rds.addBands addBands
      cases hu : used b with
      | none =>
        dsimp only
        obtain ⟨h1, h2, h3⟩ := ih r (i + 1)
        refine ⟨h1, h2, fun ho n => ?_⟩
        rw [h3 ho n]
        simp [hu]
      | some c =>
        dsimp only
        cases hi : addInfo r.proxy d with
        | mk p o =>
          cases o with
          | ok u =>
            dsimp only
            obtain ⟨h1, h2, h3⟩ := ih ⟨{ p with sources := fun x => if x = c then some ⟨d.id, i, b.usable⟩ else p.sources x },
              if d.id ∈ r.owned then r.owned else d.id :: r.owned⟩ (i + 1)
            refine ⟨h1, h2, fun ho n => ?_⟩
            rw [h3 ho n]
            dsimp only
            constructor
            · rintro (h | ⟨h, _⟩)
              · split at h
                · exact .inl h
                · rcases List.mem_cons.1 h with h | h
                  · exact .inr ⟨h, b, by simp, c, hu⟩
                  · exact .inl h
              · exact .inr ⟨h, b, by simp, c, hu⟩
            · rintro (h | ⟨h, _⟩)
              · left
                split
                · exact h
                · exact List.mem_cons_of_mem _ h
              · left
                subst h
                split
                · assumption
                · exact List.mem_cons_self
          | throws m => exact ⟨rfl, rfl, fun h => by cases h⟩
          | ub => exact ⟨rfl, rfl, fun h => by cases h⟩
          | terminate => exact ⟨rfl, rfl, fun h => by cases h⟩
          | diverges => exact ⟨rfl, rfl, fun h => by cases h⟩
  exact key d.bands r 1

/-- The first source never has undefined behaviour, and whoever has no bands with metadata is refused. -/
theorem prototype_cases (d : Dataset) (hb : d.bands ≠ []) :
    (∃ p, prototype d = .ok p ∧ ∃ b bs, d.bands = b :: bs ∧ b.usable = true) ∨ ∃ m, prototype d = .throws m := by
  unfold prototype
  have hi : (∃ p, addInfo {} d = (p, .ok ())) ∨ ∃ p m, addInfo {} d = (p, .throws m) := by
    unfold addInfo
    dsimp only
    cases d.srs with
    | none => exact .inr ⟨_, _, rfl⟩
    | some s =>
      dsimp only
      unfold moreInfo
      cases d.gt with
      | none => exact .inr ⟨_, _, rfl⟩
      | some g =>
        dsimp only
        cases d.datetime with
        | none => exact .inr ⟨_, _, rfl⟩
        | some t =>
          dsimp only
          rw [if_neg (by decide)]
          unfold firstInfo
          cases d.metadata with
          | none => exact .inr ⟨_, _, rfl⟩
          | some m => exact .inl ⟨_, rfl⟩
  rcases hi with ⟨p, e⟩ | ⟨p, m, e⟩ <;> rw [e]
  · dsimp only
    cases hbs : d.bands with
    | nil => exact absurd hbs hb
    | cons b bs =>
      dsimp only
      split
      · exact .inl ⟨_, rfl, b, bs, rfl, by assumption⟩
      · exact .inr ⟨_, rfl⟩
  · exact .inr ⟨_, rfl⟩

theorem timeOf_cases (t : Bytes) : (∃ x, timeOf t = .ok x) ∨ ∃ m, timeOf t = .throws m := by
  unfold timeOf
  split
  · exact .inl ⟨_, rfl⟩
  · exact .inr ⟨_, rfl⟩

theorem newCosSolZa_cases (d : Dataset) (hb : d.bands ≠ []) :
    (∃ p j t, newCosSolZa d = .ok (.cosSolZa p j t) ∧ ∃ b bs, d.bands = b :: bs ∧ b.usable = true) ∨ ∃ m, newCosSolZa d = .throws m := by
  unfold newCosSolZa
  rcases prototype_cases d hb with ⟨p, e, hu⟩ | ⟨m, e⟩ <;> rw [e]
  · simp only [Outcome.ok_bind]
    rcases timeOf_cases p.datetime with ⟨x, e⟩ | ⟨m, e⟩ <;> rw [e]
    · exact .inl ⟨p, _, _, rfl, hu⟩
    · exact .inr ⟨_, rfl⟩
  · exact .inr ⟨_, rfl⟩

/-- The zenith angle of the sun of any image, even one without georeference, date or metadata: nothing is lost, and if the band has no
metadata there is no product. -/
theorem C83_any_angle (files : Files) (name : Bytes) (fa : Xrit.FileAccess) (hn : Named name (channelOf fa (fa.productid2 ++ str "a")))
    (hb : ∀ d, files fa = .opens d → d.bands ≠ []) (compute : Option Bytes) (h : Heap) :
    NothingLost h (xritOpen files name compute h) ∧
    ∀ p, (xritOpen files name compute h).2 = .ok (some p) → ∃ d b bs, files fa = .opens d ∧ d.bands = b :: bs ∧ b.usable = true := by
  unfold xritOpen
  rw [hn.1, hn.2]
  simp only [channelOf, suffix_a, Bool.not_true]
  show NothingLost h (openAngle files fa h) ∧ ∀ p, (openAngle files fa h).2 = .ok (some p) → _
  unfold openAngle openOne
  rcases openDataset_cases files fa h with ⟨d, f1, e⟩ | e | ⟨m, e⟩
  · rw [e]
    dsimp only
    have hb' : ({ d with id := h.next } : Dataset).bands ≠ [] := hb d f1
    rcases newCosSolZa_cases _ hb' with ⟨p, j, t, e2, b, bs, hbs, hu⟩ | ⟨m, e2⟩ <;> rw [e2]
    · simp only [release, deleteAll, List.mem_cons_self, if_true, List.erase_cons_head]
      exact ⟨⟨List.Perm.refl _, by simp [reads]⟩, fun _ _ => ⟨d, b, bs, f1, hbs, hu⟩⟩
    · simp only [release, deleteAll, List.mem_cons_self, if_true, List.erase_cons_head]
      exact ⟨rfl, fun p hp => by cases hp⟩
  · rw [e]; exact ⟨rfl, fun p hp => by cases hp⟩
  · rw [e]; exact ⟨rfl, fun p hp => by cases hp⟩

/-! ### Cases -/

def anOpened : Dataset := ⟨0, some 1, some 2, some (str "2014-10-24 12:00:00"), some 3, 3712, 3712, [⟨some 1, true⟩]⟩

example : IsImage ⟨1, 2, str "2014-10-24 12:00:00", 3712, 3712⟩ 1 anOpened := by
  refine ⟨⟨rfl, rfl, rfl, rfl, rfl, rfl⟩, rfl, by decide, by decide, by decide⟩

example : Named (str "/data/H:MSG3:VIS006:201410241200") ⟨str "/data", str "H", str "MSG3", str "VIS006", str "201410241200"⟩ ∧
    Named (str "/data/H:MSG3:VIS006r:201410241200") ⟨str "/data", str "H", str "MSG3", str "VIS006r", str "201410241200"⟩ ∧
    (Xrit.parse (str "/data/H:MSG3:VIS006:201410241200")).Handled := by
  refine ⟨⟨by decide, by decide⟩, ⟨by decide, by decide⟩, by decide⟩

example : ¬ Asks (str "VIS006") := by
  rintro ⟨p, h | h⟩
  · have := congrArg List.getLast? h
    rw [List.getLast?_append] at this
    exact absurd (show some (54 : UInt8) = some 114 from this) (by decide)
  · have := congrArg List.getLast? h
    rw [List.getLast?_append] at this
    exact absurd (show some (54 : UInt8) = some 97 from this) (by decide)

/-! ### What is wrong -/

/-- MSAT_COMPUTE=reflectance for IR_039: an exception is thrown and the image that was opened is never closed (nor is it for any other
exception there). -/
theorem C83_violated_compute (files : Files) (name : Bytes) (fa : Xrit.FileAccess) (hn : Named name fa) (ha : ¬ Asks fa.productid2)
    (d : Dataset) (hf : files fa = .opens d) (c : Common) (hd : IsImage c 4 d) (h : Heap) :
    ∃ m, xritOpen files name (some (str "reflectance")) h = (⟨h.next + 1, h.next :: h.live⟩, .throws m) := by
  rw [xritOpen_plain files name fa hn ha d hf]
  unfold addExtras
  dsimp only
  rw [if_pos rfl, hd.2.1]
  exact ⟨_, rfl⟩

/-- Reflectance of IR_039 when IR_108 has another georeference: it is refused with an exception, and the image of IR_108, which nobody owns
at that moment, is never closed. -/
theorem C83_violated_mismatch (files : Files) (name : Bytes) (fa : Xrit.FileAccess) (hn : Named name (channelOf fa (str "IR_039r")))
    (d1 d2 d3 : Dataset) (f1 : files (channelOf fa (str "IR_039")) = .opens d1) (f2 : files (channelOf fa (str "IR_108")) = .opens d2)
    (f3 : files (channelOf fa (str "IR_134")) = .opens d3) (c c' : Common) (i1 : IsImage c 4 d1) (i2 : IsImage c' 9 d2) (hcc : c ≠ c')
    (h : Heap) :
    ∃ h' m, xritOpen files name none h = (h', .throws m) ∧ h'.live = (h.next + 1) :: h.live := by
  unfold xritOpen
  rw [hn.1, hn.2]
  have hs : suffix (str "IR_039r") = some 114 ∧ (str "IR_039r").dropLast = str "IR_039" := ⟨by decide, by decide⟩
  simp only [channelOf, hs, Bool.not_true, if_true]
  unfold openThree
  have e1 := openDataset_opens files _ h d1 f1
  have e2 := openDataset_opens files _ ⟨h.next + 1, h.next :: h.live⟩ d2 f2
  have e3 := openDataset_opens files _ ⟨h.next + 1 + 1, (h.next + 1) :: h.next :: h.live⟩ d3 f3
  unfold channelOf at e1 e2 e3
  unfold Xrit.withChannel
  dsimp only at e1 e2 e3 ⊢
  rw [e1]
  dsimp only
  rw [e2]
  dsimp only
  rw [e3]
  dsimp only
  obtain ⟨p, ea, hp, _⟩ := addSource_image {} c 4 { d1 with id := h.next } i1 (.inl ⟨rfl, rfl⟩) (by simp)
  have ei : ∃ m, addInfo p { d2 with id := h.next + 1 } = (p, .throws m) := by
    obtain ⟨d1, d2, d3, d4, d5, d6⟩ := i2.1
    obtain ⟨p1, p2, p3, p4, p5, p6⟩ := hp
    unfold addInfo moreInfo nextInfo
    rw [p2]
    dsimp only
    rw [d2, d3, d1]
    simp only [p1, if_true, p2, p3, p4, p5, p6, d4, d5]
    by_cases h1 : c.srs = c'.srs
    · by_cases h2 : c.gt = c'.gt
      · by_cases h3 : c.datetime = c'.datetime
        · by_cases h4 : c.sx = c'.sx
          · by_cases h5 : c.sy = c'.sy
            · refine absurd ?_ hcc
              cases c; cases c'
              simp_all
            · simp [h1, h2, h3, h4, h5]
          · simp [h1, h2, h3, h4]
        · simp [h1, h2, h3]
      · simp [h1, h2]
    · simp [h1]
  obtain ⟨m, ei⟩ := ei
  have eb : (⟨p, [h.next]⟩ : Rds).addSource { d2 with id := h.next + 1 } = (⟨p, [h.next]⟩, .throws m) := by
    unfold Rds.addSource
    dsimp only
    rw [i2.2.1]
    unfold Rds.addBands
    have hu : used ⟨some 9, true⟩ = some 9 := used_of rfl (by decide) (by decide)
    rw [hu]
    dsimp only
    rw [← i2.2.1, ei]
  unfold reflectance addSources
  rw [ea]
  dsimp only
  unfold addSources
  rw [eb]
  dsimp only
  refine ⟨⟨h.next + 1 + 1 + 1, (h.next + 1) :: h.live⟩, m, ?_, rfl⟩
  have he : ((h.next + 1 + 1) :: (h.next + 1) :: h.next :: h.live).erase h.next = (h.next + 1 + 1) :: (h.next + 1) :: h.live := by
    rw [List.erase_cons_tail (by simp; omega), List.erase_cons_tail (by simp), List.erase_cons_head]
  simp [release, deleteAll, he]

end Msat.Props
