import Mathlib.Data.List.Forall2
import Mathlib.Tactic.ByContra
import Verif.Model.MsatRun
import Verif.Spec.MsatRun
import Verif.Lemmas.Outcome
import Verif.Props.C47
import Verif.Props.C80

/-
C119: what msat does with the files of its command line.
-/
namespace Msat.Props
open Msat MsatRun MsatRunSpec

theorem pixels_kind {n : Nat} {k : Stretch.Kind} (h : Pixels n k) : kindOf n = k := by
  unfold kindOf
  rcases h with ⟨h, rfl⟩ | ⟨h, rfl⟩ | ⟨h, h', rfl⟩
  · subst h; rfl
  · subst h; rfl
  · split
    · exact absurd rfl h
    · exact absurd rfl h'
    · rfl

/-- The picture of a band is made. -/
theorem toMagick_drawn {r : Stretch.Range} {b : Band} {px : List UInt8} (h : Drawn r b px) : toMagick r b = .ok (some px) := by
  obtain ⟨k, vals, lo, hi, hk, hv, hl, hlt, rfl⟩ := h
  unfold toMagick
  rw [hv, pixels_kind hk]
  have key : Stretch.imageToMagick k r b.nodata (vals.map some) = .ok (vals.map fun v => UInt8.ofNat (StretchSpec.grey lo hi v).toNat) := by
    unfold Limits at hl
    cases r with
    | some r =>
      obtain ⟨rfl, h1, h2⟩ := hl
      exact C47_given_partial k b.nodata lo hi h1 h2 hlt vals
    | none =>
      obtain ⟨m, hm, hp, hx⟩ := hl
      rw [hm]
      obtain ⟨x, y, h1, -, h3⟩ := C47_computed_partial k m hp vals lo hi hx.1 hx.2.1 hlt
      have e1 : x = lo := le_antisymm (h1.2.2 lo hx.1.1 hx.1.2).1 (hx.2.2 x h1.1.1 h1.1.2).1
      have e2 : y = hi := le_antisymm (hx.2.2 y h1.2.1.1 h1.2.1.2).2 (h1.2.2 hi hx.2.1.1 hx.2.1.2).2
      rw [h3, e1, e2]
  dsimp only
  rw [key]
  rfl

theorem dot_mem (ext : String) (h : '.' ∈ ext.toList) (d : Dataset) (b : Band) : '.' ∈ pictureName ext d b := by
  unfold pictureName
  exact List.mem_append_right _ h

theorem export_drawn {lib : Library} {r : Stretch.Range} {ext : String} (hext : '.' ∈ ext.toList) {d : Dataset} {b : Band} {out : Output}
    (h : PictureOf lib r ext d b out) : exportImage lib r b (pictureName ext d b) = .ok (some out) := by
  obtain ⟨px, hd, hw, rfl⟩ := h
  unfold exportImage
  rw [if_neg (not_not.2 (dot_mem ext hext d b)), toMagick_drawn hd, Outcome.ok_bind]
  dsimp only
  rw [if_pos hw]

theorem each_all {f : Band → Outcome (Option Output)} {bs : List Band} {out : List Output}
    (h : List.Forall₂ (fun b o => f b = .ok (some o)) bs out) : each f bs = .ok ⟨none, out⟩ := by
  induction h with
  | nil => rfl
  | cons h _ ih => rw [each, h]; dsimp only; rw [ih]; rfl

theorem act_does {lib : Library} {o : Options} {d : Dataset} {out : List Output} (h : Does lib o d out) : act lib o d = .ok ⟨none, out⟩ := by
  unfold Does at h
  unfold act
  cases hact : o.action with
  | view more => rw [hact] at h; dsimp only at h ⊢; rw [h]
  | convert drv =>
    rw [hact] at h
    obtain ⟨ext, h1, h2, rfl⟩ := h
    dsimp only
    rw [h1]
    dsimp only
    rw [if_pos h2]
  | jpg => rw [hact] at h; exact each_all (h.imp fun b o h => export_drawn (by decide) h)
  | png => rw [hact] at h; exact each_all (h.imp fun b o h => export_drawn (by decide) h)
  | display =>
    rw [hact] at h
    refine each_all (h.imp fun b out h => ?_)
    obtain ⟨px, hd, rfl⟩ := h
    unfold displayImage
    rw [toMagick_drawn hd]
    rfl

theorem copyBands_get (bs ms : List Band) (i : Nat) : (copyBands bs ms)[i]? =
    match bs[i]?, ms[i]? with
    | some b, some m => some { b with description := m.description, md := m.md }
    | b, _ => b := by
  induction bs generalizing ms i with
  | nil => rw [copyBands]; simp
  | cons b bs ih =>
    cases ms with
    | nil =>
      rw [copyBands]
      · rcases (b :: bs)[i]? with _ | x <;> rfl
      · simp
    | cons m ms =>
      rw [copyBands]
      cases i with
      | zero => rfl
      | succ i => simpa using ih ms i

theorem copyBands_length (bs ms : List Band) : (copyBands bs ms).length = bs.length := by
  induction bs generalizing ms with
  | nil => rw [copyBands]
  | cons b bs ih =>
    cases ms with
    | nil =>
      rw [copyBands]
      simp
    | cons m ms => rw [copyBands, List.length_cons, ih, List.length_cons]

/-- The image with other names and metadata is the only one that there can be. -/
theorem amended_unique {m v w w' : Dataset} (h : Amended m v w) (h' : Amended m v w') : w = w' := by
  have hb : w.bands = w'.bands := by
    apply List.ext_getElem?
    intro i
    rcases hm : m.bands[i]? with _ | t
    · rw [h.others i hm, h'.others i hm]
    · rcases hv : v.bands[i]? with _ | b
      · have hl : v.bands.length ≤ i := List.getElem?_eq_none_iff.1 hv
        rw [List.getElem?_eq_none_iff.2 (by rw [h.count]; exact hl), List.getElem?_eq_none_iff.2 (by rw [h'.count]; exact hl)]
      · have hl : i < v.bands.length := (List.getElem?_eq_some_iff.1 hv).1
        have e1 := List.getElem?_eq_getElem (l := w.bands) (i := i) (by rw [h.count]; exact hl)
        have e2 := List.getElem?_eq_getElem (l := w'.bands) (i := i) (by rw [h'.count]; exact hl)
        have p1 := h.pixels i b _ hv e1
        have p2 := h'.pixels i b _ hv e2
        have n1 := h.named i _ t e1 hm
        have n2 := h'.named i _ t e2 hm
        rw [e1, e2]
        congr 1
        generalize w.bands[i]'_ = x at *
        generalize w'.bands[i]'_ = y at *
        obtain ⟨x1, x2, x3, x4, x5⟩ := x
        obtain ⟨y1, y2, y3, y4, y5⟩ := y
        obtain ⟨rfl, rfl, rfl⟩ := p1
        obtain ⟨rfl, rfl, rfl⟩ := p2
        obtain ⟨rfl, rfl⟩ := n1
        obtain ⟨rfl, rfl⟩ := n2
        rfl
  obtain ⟨w1, w2, w3⟩ := w
  obtain ⟨u1, u2, u3⟩ := w'
  have a := h.description
  have b := h'.description
  have c := h.metadata
  have d := h'.metadata
  dsimp only at a b c d hb
  subst a b c d hb
  rfl

theorem copy_amended (m v : Dataset) : Amended m v ⟨m.description, m.md, copyBands v.bands m.bands⟩ := by
  refine ⟨rfl, rfl, copyBands_length _ _, ?_, ?_, ?_⟩
  · intro i b b' hb hb'
    dsimp only at hb'
    rw [copyBands_get, hb] at hb'
    split at hb' <;> simp_all
    · subst hb'
      exact ⟨rfl, rfl, rfl⟩
  · intro i b' t hb' ht
    dsimp only at hb'
    rw [copyBands_get, ht] at hb'
    split at hb' <;> simp_all
    subst hb'
    exact ⟨rfl, rfl⟩
  · intro i hi
    dsimp only
    rw [copyBands_get, hi]
    split <;> simp_all

theorem copy_labelled {lib : Library} {template : List Char} {v w : Dataset} (h : Labelled lib template v w) :
    copyMetadata lib template v = .ok w := by
  unfold copyMetadata
  rcases h with ⟨h, rfl⟩ | ⟨h, m, hm, ha⟩
  · rw [if_pos h]
  · rw [if_neg h, hm]
    dsimp only
    rw [amended_unique ha (copy_amended m v)]

theorem labelled_of {lib : Library} {template : List Char} {v w : Dataset} (h : copyMetadata lib template v = .ok w) :
    Labelled lib template v w := by
  unfold copyMetadata at h
  split at h
  · exact .inl ⟨‹_›, (Outcome.ok.inj h).symm⟩
  · split at h
    · exact absurd h (by simp)
    · refine .inr ⟨‹_›, _, ‹_›, ?_⟩
      rw [← Outcome.ok.inj h]
      exact copy_amended _ _

/-- The images that are chosen are all done, one after the other, and the status is 0. -/
theorem C119_done_partial {T : Type} (lib : Library) (o : Options) (pick : T → Dataset → Outcome (T × Picked)) (t : T)
    (files : List (List Char)) (vs ws : List Dataset) (outs : List (List Output)) (hc : Chosen lib pick t files vs)
    (hl : List.Forall₂ (Labelled lib o.template) vs ws) (hd : List.Forall₂ (Does lib o) ws outs) :
    program lib o pick t files = .ok (0, outs.flatten) := by
  have key : run lib o pick t files = .ok ⟨none, outs.flatten⟩ := by
    induction hc generalizing ws outs with
    | nil t => cases hl; cases hd; rfl
    | skip h1 h2 _ ih =>
      rw [run, h1]
      dsimp only
      rw [h2]
      exact ih ws outs hl hd
    | made h1 h2 _ ih =>
      cases hl with
      | cons hl0 hl =>
        cases hd with
        | cons hd0 hd =>
          rw [run, h1]
          dsimp only
          rw [h2]
          dsimp only
          rw [copy_labelled hl0, Outcome.ok_bind, act_does hd0, Outcome.ok_bind]
          dsimp only
          rw [ih _ _ hl hd]
          rfl
  unfold program
  rw [key]
  rfl

theorem act_status {lib : Library} {o : Options} {d : Dataset} {r : Result} (h : act lib o d = .ok r) : r.status = none ∨ r.status = some 1 := by
  have heach : ∀ f bs r, each f bs = .ok r → r.status = none ∨ r.status = some 1 := by
    intro f bs
    induction bs with
    | nil => intro r h; rw [each] at h; rw [← Outcome.ok.inj h]; exact .inl rfl
    | cons b bs ih =>
      intro r h
      rw [each] at h
      split at h
      · obtain ⟨x, hx, h⟩ := Outcome.of_bind_ok h
        rw [← Outcome.ok.inj h]
        exact ih x hx
      all_goals first | (rw [← Outcome.ok.inj h]; exact .inr rfl) | exact absurd h (by simp)
  unfold act at h
  split at h
  · rw [← Outcome.ok.inj h]; exact .inl rfl
  · split at h
    · rw [← Outcome.ok.inj h]; exact .inr rfl
    · dsimp only at h
      split at h
      · rw [← Outcome.ok.inj h]; exact .inl rfl
      · rw [← Outcome.ok.inj h]; exact .inr rfl
  all_goals exact heach _ _ _ h

/-- A file is done and the program goes on, or what follows does not matter. -/
theorem run_cons {T : Type} (lib : Library) (o : Options) (pick : T → Dataset → Outcome (T × Picked)) (t : T) (f : List Char) :
    (∃ t' out1, ∀ fs, run lib o pick t (f :: fs) = (do
        let rest ← run lib o pick t' fs
        pure ⟨rest.status, out1 ++ rest.out⟩)) ∨
    (∃ x, (∀ fs, run lib o pick t (f :: fs) = x) ∧ ∀ r, x = .ok r → r.status = some 1) := by
  cases ho : lib.opens f with
  | none => exact .inr ⟨.ok ⟨some 1, []⟩, fun fs => by rw [run, ho], fun r h => by rw [← Outcome.ok.inj h]⟩
  | some d =>
    rcases hp : pick t d with ⟨t', p⟩ | m | _ | _ | _
    · cases p with
      | skipped =>
        refine .inl ⟨t', [], fun fs => ?_⟩
        rw [run, ho]
        dsimp only
        rw [hp]
        dsimp only
        cases run lib o pick t' fs <;> rfl
      | failed => exact .inr ⟨.ok ⟨some 1, []⟩, fun fs => by rw [run, ho]; dsimp only; rw [hp], fun r h => by rw [← Outcome.ok.inj h]⟩
      | null => exact .inr ⟨.ub, fun fs => by rw [run, ho]; dsimp only; rw [hp], fun r h => absurd h (by simp)⟩
      | made v =>
        rcases hc : copyMetadata lib o.template v with w | m | _ | _ | _
        · rcases ha : act lib o w with ⟨s, out1⟩ | m | _ | _ | _
          · cases s with
            | none =>
              refine .inl ⟨t', out1, fun fs => ?_⟩
              rw [run, ho]
              dsimp only
              rw [hp]
              dsimp only
              rw [hc, Outcome.ok_bind, ha, Outcome.ok_bind]
            | some n =>
              refine .inr ⟨.ok ⟨some n, out1⟩, fun fs => ?_, fun r h => ?_⟩
              · rw [run, ho]
                dsimp only
                rw [hp]
                dsimp only
                rw [hc, Outcome.ok_bind, ha, Outcome.ok_bind]
                rfl
              · rw [← Outcome.ok.inj h]
                exact (act_status ha).resolve_left (by simp)
          all_goals exact .inr ⟨_, fun fs => by rw [run, ho]; dsimp only; rw [hp]; dsimp only; rw [hc, Outcome.ok_bind, ha]; rfl,
            fun r h => absurd h (by simp)⟩
        all_goals exact .inr ⟨_, fun fs => by rw [run, ho]; dsimp only; rw [hp]; dsimp only; rw [hc]; rfl, fun r h => absurd h (by simp)⟩
    · exact .inr ⟨.ok ⟨some 1, []⟩, fun fs => by rw [run, ho]; dsimp only; rw [hp], fun r h => by rw [← Outcome.ok.inj h]⟩
    all_goals exact .inr ⟨_, fun fs => by rw [run, ho]; dsimp only; rw [hp], fun r h => absurd h (by simp)⟩

theorem run_status {T : Type} (lib : Library) (o : Options) (pick : T → Dataset → Outcome (T × Picked)) (t : T) (files : List (List Char))
    (r : Result) (h : run lib o pick t files = .ok r) : r.status = none ∨ r.status = some 1 := by
  induction files generalizing t r with
  | nil => rw [run] at h; rw [← Outcome.ok.inj h]; exact .inl rfl
  | cons f fs ih =>
    rcases run_cons lib o pick t f with ⟨t', out1, h1⟩ | ⟨x, h1, h2⟩
    · rw [h1] at h
      obtain ⟨y, hy, h⟩ := Outcome.of_bind_ok h
      rw [← Outcome.ok.inj h]
      exact ih t' y hy
    · rw [h1] at h
      exact .inr (h2 r h)

theorem each_seen {f : Band → Outcome (Option Output)} {P : Band → Output → Prop} (hf : ∀ b o, f b = .ok (some o) → P b o) {bs : List Band}
    {out : List Output} (h : each f bs = .ok ⟨none, out⟩) : List.Forall₂ P bs out := by
  induction bs generalizing out with
  | nil =>
    rw [each] at h
    obtain ⟨-, rfl⟩ := Result.mk.inj (Outcome.ok.inj h)
    exact .nil
  | cons b bs ih =>
    rw [each] at h
    split at h
    · rename_i o ho
      obtain ⟨x, hx, h⟩ := Outcome.of_bind_ok h
      obtain ⟨s, out'⟩ := x
      obtain ⟨rfl, rfl⟩ := Result.mk.inj (Outcome.ok.inj h)
      exact .cons (hf b o ho) (ih hx)
    all_goals first | exact absurd (congrArg Result.status (Outcome.ok.inj h)) (by simp) | exact absurd h (by simp)

theorem toMagick_some {r : Stretch.Range} {b : Band} {px : List UInt8} (h : toMagick r b = .ok (some px)) : b.pixels ≠ none := by
  intro hn
  unfold toMagick at h
  rw [hn] at h
  exact absurd (Outcome.ok.inj h) (by simp)

theorem export_seen {lib : Library} {r : Stretch.Range} {b : Band} {file : List Char} {o : Output} (h : exportImage lib r b file = .ok (some o)) :
    b.pixels ≠ none ∧ lib.write file = true ∧ ∃ px, o = .picture file px := by
  unfold exportImage at h
  split at h
  · exact absurd (Outcome.ok.inj h) (by simp)
  · obtain ⟨x, hx, h⟩ := Outcome.of_bind_ok h
    cases x with
    | none => exact absurd h (by simp)
    | some px =>
      dsimp only at h
      split at h
      · exact ⟨toMagick_some hx, ‹_›, px, (Option.some.inj (Outcome.ok.inj h)).symm⟩
      · exact absurd h (by simp)

theorem act_seen {lib : Library} {o : Options} {d : Dataset} {out : List Output} (h : act lib o d = .ok ⟨none, out⟩) : Seen lib o d out := by
  unfold act at h
  unfold Seen
  cases hact : o.action with
  | view more => rw [hact] at h; exact (congrArg Result.out (Outcome.ok.inj h)).symm
  | convert drv =>
    rw [hact] at h
    dsimp only at h ⊢
    split at h
    · exact absurd (congrArg Result.status (Outcome.ok.inj h)) (by simp)
    · split at h
      · exact ⟨_, ‹_›, ‹_›, (congrArg Result.out (Outcome.ok.inj h)).symm⟩
      · exact absurd (congrArg Result.status (Outcome.ok.inj h)) (by simp)
  | jpg => rw [hact] at h; dsimp only at h ⊢; exact each_seen (f := fun b => exportImage lib o.range b _) (fun b o h => export_seen h) h
  | png => rw [hact] at h; dsimp only at h ⊢; exact each_seen (f := fun b => exportImage lib o.range b _) (fun b o h => export_seen h) h
  | display =>
    rw [hact] at h
    refine each_seen (fun b o h => ?_) h
    unfold displayImage at h
    obtain ⟨x, hx, h⟩ := Outcome.of_bind_ok h
    cases x with
    | none => exact absurd (Outcome.ok.inj h) (by simp)
    | some px => exact ⟨toMagick_some hx, px, (Option.some.inj (Outcome.ok.inj h)).symm⟩

/-- The status is 0 or 1; it is 0 only if every file could be opened, and what was done is what was done with each of the images chosen. -/
theorem C119_status {T : Type} (lib : Library) (o : Options) (pick : T → Dataset → Outcome (T × Picked)) (t : T)
    (files : List (List Char)) (n : Nat) (out : List Output) (h : program lib o pick t files = .ok (n, out)) :
    (n = 0 ∨ n = 1) ∧ (n = 0 → ∃ vs ws outs, Chosen lib pick t files vs ∧ List.Forall₂ (Labelled lib o.template) vs ws ∧
      List.Forall₂ (Seen lib o) ws outs ∧ out = outs.flatten) := by
  unfold program at h
  obtain ⟨r, hr, h'⟩ := Outcome.of_bind_ok h
  clear h
  have hn : r.status.getD 0 = n := congrArg Prod.fst (Outcome.ok.inj h')
  have ho : r.out = out := congrArg Prod.snd (Outcome.ok.inj h')
  have hs := run_status lib o pick t files r hr
  refine ⟨by rcases hs with hs | hs <;> rw [hs] at hn <;> simp at hn <;> omega, ?_⟩
  intro h0
  have h1 : r.status = none := by
    rcases hs with hs | hs
    · exact hs
    · rw [hs] at hn; simp at hn; omega
  subst ho
  clear h' hn hs h0
  induction files generalizing t r with
  | nil => rw [run] at hr; exact ⟨[], [], [], .nil t, .nil, .nil, by rw [← Outcome.ok.inj hr]; rfl⟩
  | cons f fs ih =>
    rw [run] at hr
    split at hr
    · rw [← Outcome.ok.inj hr] at h1; exact absurd h1 (by simp)
    · rename_i d hd
      split at hr
      · rw [← Outcome.ok.inj hr] at h1; exact absurd h1 (by simp)
      · exact absurd hr (by simp)
      · exact absurd hr (by simp)
      · exact absurd hr (by simp)
      · rename_i t' p hp
        split at hr
        · obtain ⟨vs, ws, outs, a, b, c, e⟩ := ih _ r hr h1
          exact ⟨vs, ws, outs, .skip hd hp a, b, c, e⟩
        · rw [← Outcome.ok.inj hr] at h1; exact absurd h1 (by simp)
        · exact absurd hr (by simp)
        · obtain ⟨v, hv, hr⟩ := Outcome.of_bind_ok hr
          obtain ⟨x, hx, hr⟩ := Outcome.of_bind_ok hr
          split at hr
          · rename_i n hn
            rw [← Outcome.ok.inj hr] at h1
            rw [hn] at h1
            exact absurd h1 (by simp)
          · rename_i hn
            obtain ⟨y, hy, hr⟩ := Outcome.of_bind_ok hr
            rw [← Outcome.ok.inj hr] at h1 ⊢
            obtain ⟨vs, ws, outs, a, b, c, e⟩ := ih _ y hy h1
            obtain ⟨x1, x2⟩ := x
            dsimp only at hn
            subst hn
            refine ⟨_ :: vs, v :: ws, x2 :: outs, .made hd hp a, .cons (labelled_of hv) b, .cons (act_seen hx) c, ?_⟩
            rw [e]
            rfl

theorem run_prefix {T : Type} (lib : Library) (o : Options) (pick : T → Dataset → Outcome (T × Picked)) (t : T) (files : List (List Char))
    (r : Result) (h : run lib o pick t files = .ok r) (hs : r.status ≠ none) :
    ∃ before f after out0 more, files = before ++ f :: after ∧ run lib o pick t before = .ok ⟨none, out0⟩ ∧
      run lib o pick t (before ++ [f]) = .ok r ∧ r.out = out0 ++ more := by
  induction files generalizing t r with
  | nil => rw [run] at h; rw [← Outcome.ok.inj h] at hs; exact absurd rfl hs
  | cons f fs ih =>
    rcases run_cons lib o pick t f with ⟨t', out1, h1⟩ | ⟨x, h1, h2⟩
    · rw [h1] at h
      obtain ⟨y, hy, h⟩ := Outcome.of_bind_ok h
      have h := Outcome.ok.inj h
      subst h
      obtain ⟨before, g, after, out0, more, e1, e2, e3, e4⟩ := ih t' y hy hs
      refine ⟨f :: before, g, after, out1 ++ out0, more, by rw [e1]; rfl, ?_, ?_, by rw [e4, List.append_assoc]⟩
      · rw [h1, e2]
        rfl
      · rw [List.cons_append, h1, e3]
        rfl
    · exact ⟨[], f, fs, [], r.out, rfl, rfl, by rw [List.nil_append, h1, ← h1 fs]; exact h, rfl⟩

/-- When the program fails there is a file with which it fails: the files before it are done, those after it are not looked at, and of that
one perhaps a part has been done. -/
theorem C119_failure {T : Type} (lib : Library) (o : Options) (pick : T → Dataset → Outcome (T × Picked)) (t : T)
    (files : List (List Char)) (out : List Output) (h : program lib o pick t files = .ok (1, out)) :
    ∃ before f after out0 more, files = before ++ f :: after ∧ program lib o pick t before = .ok (0, out0) ∧
      program lib o pick t (before ++ [f]) = .ok (1, out) ∧ out = out0 ++ more := by
  unfold program at h
  obtain ⟨r, hr, h'⟩ := Outcome.of_bind_ok h
  clear h
  have hn : r.status.getD 0 = 1 := congrArg Prod.fst (Outcome.ok.inj h')
  have ho : r.out = out := congrArg Prod.snd (Outcome.ok.inj h')
  obtain ⟨before, f, after, out0, more, e1, e2, e3, e4⟩ := run_prefix lib o pick t files r hr (fun h => by rw [h] at hn; simp at hn)
  refine ⟨before, f, after, out0, more, e1, ?_, ?_, by rw [← ho, e4]⟩
  · unfold program
    rw [e2]
    rfl
  · unfold program
    rw [e3, Outcome.ok_bind, hn, ho]
    rfl

/-- What is done with files does not depend on those after them: a file that cannot be opened, or on which the area of --Area is not, ends
the program with status 1, after the files before it have been done. -/
theorem C119_refused {T : Type} (lib : Library) (o : Options) (pick : T → Dataset → Outcome (T × Picked)) (t : T)
    (before after : List (List Char)) (f : List Char) (out : List Output) (h : program lib o pick t before = .ok (0, out))
    (hf : lib.opens f = none ∨ ∃ d, lib.opens f = some d ∧ ∀ t, (∃ t', pick t d = .ok (t', .failed)) ∨ ∃ m, pick t d = .throws m) :
    program lib o pick t (before ++ f :: after) = .ok (1, out) := by
  unfold program at h
  obtain ⟨r, hr, h'⟩ := Outcome.of_bind_ok h
  clear h
  have hn : r.status.getD 0 = 0 := congrArg Prod.fst (Outcome.ok.inj h')
  have ho : r.out = out := congrArg Prod.snd (Outcome.ok.inj h')
  have hs : r.status = none := by
    rcases run_status lib o pick t before r hr with hs | hs
    · exact hs
    · rw [hs] at hn; simp at hn
  have hlast : ∀ t, run lib o pick t (f :: after) = .ok ⟨some 1, []⟩ := by
    intro t
    rw [run]
    rcases hf with hf | ⟨d, hd, hp⟩
    · rw [hf]
    · rw [hd]
      dsimp only
      rcases hp t with ⟨t', hp⟩ | ⟨m, hp⟩ <;> rw [hp]
  have key : run lib o pick t (before ++ f :: after) = .ok ⟨some 1, r.out⟩ := by
    clear hn ho h'
    induction before generalizing t r with
    | nil =>
      rw [run] at hr
      rw [← Outcome.ok.inj hr]
      exact hlast t
    | cons g gs ih =>
      rcases run_cons lib o pick t g with ⟨t', out1, h1⟩ | ⟨x, h1, h2⟩
      · rw [h1] at hr
        obtain ⟨y, hy, hr⟩ := Outcome.of_bind_ok hr
        have hr := Outcome.ok.inj hr
        subst hr
        rw [List.cons_append, h1, ih t' y hy hs]
        rfl
      · rw [h1] at hr
        exact absurd (h2 r hr) (by rw [hs]; simp)
  unfold program
  rw [key, ← ho]
  rfl

/-- A format that GDAL does not have, or a file that it cannot make, is an error. -/
theorem C119_convert_refused {T : Type} (lib : Library) (o : Options) (pick : T → Dataset → Outcome (T × Picked)) (t : T)
    (files : List (List Char)) (v w : Dataset) (vs : List Dataset) (drv : List Char) (ho : o.action = .convert drv)
    (hd : lib.driver drv = none ∨ ∀ file, lib.copy drv file w = false) (hc : Chosen lib pick t files (v :: vs))
    (hl : Labelled lib o.template v w) : program lib o pick t files = .ok (1, []) := by
  have key : run lib o pick t files = .ok ⟨some 1, []⟩ := by
    generalize hvs : v :: vs = l at hc
    induction hc with
    | nil t => exact absurd hvs (by simp)
    | skip h1 h2 _ ih =>
      rw [run, h1]
      dsimp only
      rw [h2]
      exact ih hvs
    | made h1 h2 _ ih =>
      obtain ⟨rfl, -⟩ := List.cons.inj hvs
      rw [run, h1]
      dsimp only
      rw [h2]
      dsimp only
      rw [copy_labelled hl, Outcome.ok_bind]
      have : act lib o w = .ok ⟨some 1, []⟩ := by
        unfold act
        rw [ho]
        dsimp only
        rcases hd with hd | hd
        · rw [hd]
        · split
          · rfl
          · rw [if_neg (by rw [hd]; simp)]
      rw [this]
      rfl
  unfold program
  rw [key]
  rfl

theorem each_fails {f : Band → Outcome (Option Output)} {bs : List Band} {out : List Output} {b : Band} (rest : List Band)
    (h : List.Forall₂ (fun b o => f b = .ok (some o)) bs out) (hb : f b = .ok none) : each f (bs ++ b :: rest) = .ok ⟨some 1, out⟩ := by
  induction h with
  | nil => rw [List.nil_append, each, hb]
  | cons h _ ih => rw [List.cons_append, each, h]; dsimp only; rw [ih]; rfl

/-- A band that cannot be read is not displayed, nor are those after it: the status is 1. -/
theorem C119_display_refused {T : Type} (lib : Library) (o : Options) (pick : T → Dataset → Outcome (T × Picked)) (t t' : T)
    (f : List Char) (fs : List (List Char)) (d v : Dataset) (bs rest : List Band) (b : Band) (out : List Output) (ho : o.action = .display)
    (ht : o.template = []) (hf : lib.opens f = some d) (hp : pick t d = .ok (t', .made v)) (hv : v.bands = bs ++ b :: rest)
    (hd : List.Forall₂ (fun b out => ∃ px, Drawn o.range b px ∧ out = .displayed px) bs out) (hb : b.pixels = none) :
    program lib o pick t (f :: fs) = .ok (1, out) := by
  have ha : act lib o v = .ok ⟨some 1, out⟩ := by
    unfold act
    rw [ho, hv]
    refine each_fails rest (hd.imp fun b out h => ?_) ?_
    · obtain ⟨px, hd, rfl⟩ := h
      unfold displayImage
      rw [toMagick_drawn hd]
      rfl
    · unfold displayImage toMagick
      rw [hb]
      rfl
  unfold program
  rw [run, hf]
  dsimp only
  rw [hp]
  dsimp only
  rw [copy_labelled (.inl ⟨ht, rfl⟩), Outcome.ok_bind, ha]
  rfl

/-- `export_image` returns false exactly for names without a dot, and then makes nothing. -/
theorem C119_extension (lib : Library) (r : Stretch.Range) (b : Band) (file : List Char) :
    exportImage lib r b file = .ok none ↔ '.' ∉ file := by
  unfold exportImage
  constructor
  · intro h hd
    rw [if_neg (not_not.2 hd)] at h
    obtain ⟨x, -, h⟩ := Outcome.of_bind_ok h
    cases x with
    | none => exact absurd h (by simp)
    | some px =>
      dsimp only at h
      split at h
      · exact absurd (Outcome.ok.inj h) (by simp)
      · exact absurd h (by simp)
  · intro h
    rw [if_pos h]

/-! ### Discrepancies -/

/-- Discrepancy: a picture of a band that cannot be read: instead of an error the null pointer is used, in every image that has such a
band after others that can be drawn. -/
theorem C119_violated_band {T : Type} (lib : Library) (o : Options) (pick : T → Dataset → Outcome (T × Picked)) (t t' : T)
    (f : List Char) (fs : List (List Char)) (d v : Dataset) (bs rest : List Band) (b : Band) (out : List Output)
    (ext : String) (ho : (o.action = .jpg ∧ ext = ".jpg") ∨ (o.action = .png ∧ ext = ".png"))
    (ht : o.template = []) (hf : lib.opens f = some d) (hp : pick t d = .ok (t', .made v)) (hv : v.bands = bs ++ b :: rest)
    (hd : List.Forall₂ (PictureOf lib o.range ext v) bs out) (hb : b.pixels = none) :
    program lib o pick t (f :: fs) = .ub := by
  have hext : '.' ∈ ext.toList := by rcases ho with ⟨-, rfl⟩ | ⟨-, rfl⟩ <;> decide
  have heach : each (fun b => exportImage lib o.range b (pictureName ext v b)) (bs ++ b :: rest) = .ub := by
    clear hv
    induction hd with
    | nil =>
      rw [List.nil_append, each]
      have : exportImage lib o.range b (pictureName ext v b) = .ub := by
        unfold exportImage toMagick
        rw [if_neg (not_not.2 (dot_mem ext hext v b)), hb]
        rfl
      rw [this]
    | cons h _ ih =>
      rw [List.cons_append, each, export_drawn hext h]
      dsimp only
      rw [ih]
      rfl
  have ha : act lib o v = .ub := by
    unfold act
    rw [hv]
    rcases ho with ⟨ho, rfl⟩ | ⟨ho, rfl⟩ <;> rw [ho] <;> exact heach
  unfold program
  rw [run, hf]
  dsimp only
  rw [hp]
  dsimp only
  rw [copy_labelled (.inl ⟨ht, rfl⟩), Outcome.ok_bind, ha]
  rfl

/-- Discrepancy: --copymd with a file that cannot be opened uses a null pointer. -/
theorem C119_violated_template {T : Type} (lib : Library) (o : Options) (pick : T → Dataset → Outcome (T × Picked)) (t t' : T)
    (f : List Char) (fs : List (List Char)) (d v : Dataset) (ht : o.template ≠ []) (hm : lib.opens o.template = none)
    (hf : lib.opens f = some d) (hp : pick t d = .ok (t', .made v)) : program lib o pick t (f :: fs) = .ub := by
  unfold program
  rw [run, hf]
  dsimp only
  rw [hp]
  dsimp only
  unfold copyMetadata
  rw [if_neg ht, hm]
  rfl

/-! ### Examples -/

/-- One image with two bands, of bytes and of floating point numbers, and a template with one band. -/
def runLibrary : Library where
  opens f := if f = ['a'] then some ⟨['a'], [("MSAT_SPACECRAFT".toList, "MSG1".toList)],
      [⟨['x'], [], 1, some 0, some [some 0, some 10, some 20]⟩, ⟨['y'], [], 6, some 0, some [some (1 / 2), some (3 / 2)]⟩]⟩
    else if f = ['m'] then some ⟨['m'], [], [⟨['z'], [("MSAT_CHANNEL".toList, "VIS".toList)], 1, none, none⟩]⟩
    else none
  driver _ := none
  copy _ _ _ := false
  write _ := true

/-- The greatest value is white and the least that is not missing is black; both pictures have the same name (C80). -/
example : program runLibrary ⟨.png, [], none⟩ (fun (_ : Unit) d => .ok ((), .made d)) () [['a']] =
    .ok (0, [.picture "MSG1_unknown__.png".toList [0, 0, 255], .picture "MSG1_unknown__.png".toList [0, 255]]) := by
  decide +kernel

/-- With a template the first band has its name, and the second keeps its own. -/
example : ∃ w, program runLibrary ⟨.view true, ['m'], none⟩ (fun (_ : Unit) d => .ok ((), .made d)) () [['a']] = .ok (0, [.shown true w]) ∧
    w.description = ['m'] ∧ w.bands.map (·.description) = [['z'], ['y']] := ⟨_, rfl, by decide +kernel⟩

/-- The second file cannot be opened. -/
example : program runLibrary ⟨.png, [], none⟩ (fun (_ : Unit) d => .ok ((), .made d)) () [['a'], ['b'], ['a']] =
    .ok (1, [.picture "MSG1_unknown__.png".toList [0, 0, 255], .picture "MSG1_unknown__.png".toList [0, 255]]) := by
  decide +kernel

/-! ### Names -/

section
open Msat.MsatTool Msat.ToolSpec Msat.SatSpec

/-- The items of the metadata that the names come from: those of an image with a satellite and a time, and of a band with a channel of SEVIRI. -/
theorem C119_name (satellite channel : String) (s c : Nat) (hs : OnSeviri satellite s) (hc : OfSeviri channel c) (t : Date) (ht : t.Valid)
    (d : Dataset) (b : Band) (v w : List Char) (h1 : d.md.lookup "MSAT_SPACECRAFTID".toList = some v) (hv : IsNumber v ∧ decimal v = s)
    (h2 : d.md.lookup "MSAT_SPACECRAFT".toList = some satellite.toList) (h3 : d.md.lookup "MSAT_DATETIME".toList = some t.text)
    (h4 : b.md.lookup "MSAT_CHANNELID".toList = some w) (hw : IsNumber w ∧ decimal w = c)
    (h5 : b.md.lookup "MSAT_CHANNEL".toList = some channel.toList) (ext : String) :
    pictureName ext d b = seviriFile satellite channel t ++ ext.toList ∧
    (d.bands = [b] → ∀ e, convertName (metaOf d) (d.bands.map bandMetaOf) (some e) = seviriFile satellite channel t ++ '.' :: e) := by
  have key := C80_name satellite channel s c hs hc t ht (metaOf d) (bandMetaOf b) ⟨v, h1, hv.1, hv.2⟩ h2 h3 ⟨w, h4, hw.1, hw.2⟩ h5
  refine ⟨by unfold pictureName; rw [(key _).1], fun hb e => ?_⟩
  rw [hb]
  unfold convertName
  rw [List.map_singleton, (key []).2]

/-- Channel 9 of Meteosat-8. -/
example (px : Option (List Stretch.Val)) : pictureName ".png"
    { description := [], md := [("MSAT_SPACECRAFTID".toList, "55".toList), ("MSAT_SPACECRAFT".toList, "MSG1".toList), ("MSAT_DATETIME".toList, "2020-01-31 12:45:00".toList)], bands := [] }
    { description := [], md := [("MSAT_CHANNEL".toList, "IR_108".toList), ("MSAT_CHANNELID".toList, "9".toList)], type := 1, nodata := none, pixels := px } =
    "MSG1_Seviri_1_5_IR_108_20200131_1245.png".toList :=
  (C119_name "MSG1" "IR_108" 55 9 ⟨by decide, some 321, by decide⟩ ⟨(108, true), by decide⟩
    ⟨"2020".toList, "01".toList, "31".toList, "12".toList, "45".toList, "00".toList⟩
    ⟨by decide, by
      have : ∀ c ∈ ("20200131124500".toList), '0' ≤ c ∧ c ≤ '9' := by decide
      intro c hc
      refine this c ?_
      rcases hc with h | h | h | h | h | h <;> simp at h ⊢ <;> tauto⟩
    _ _ "55".toList "9".toList rfl ⟨by decide, by decide⟩ rfl rfl rfl ⟨by decide, by decide⟩ rfl ".png").1

end

end Msat.Props
