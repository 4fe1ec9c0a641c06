import Verif.Lemmas.RecordTexts
import Verif.Lemmas.Text
import Mathlib.Tactic.Common

/-
Auxiliary facts on printing records: when the text is defined, and what it determines.
-/
namespace Msat.RecordTexts
open Msat Layout RecordTextsSpec Text

/-! ### Members by path -/

/-- The part of a layout at a path. -/
def layAt : Lay → Path → Option Lay
  | l, [] => some l
  | .arr n l, .i j :: p => if j < n then layAt l p else none
  | .field nm l rest, .f x :: p => if nm = x then layAt l p else layAt rest (.f x :: p)
  | .skip _ rest, p => layAt rest p
  | _, _ => none

/-- The kind of a member. -/
def kindAt (l : Lay) (p : Path) : Option Kind :=
  match layAt l p with
  | some (.prim k) => some k
  | _ => none

theorem layAt_nil (l : Lay) : layAt l [] = some l := by
  cases l <;> rfl

theorem layAt_append : ∀ (l : Lay) (p q : Path) (l' : Lay), layAt l p = some l' → layAt l (p ++ q) = layAt l' q
  | l, [], q, l', h => by
    rw [layAt_nil] at h
    cases h
    rfl
  | .prim _, .i _ :: _, _, _, h => by cases h
  | .prim _, .f _ :: _, _, _, h => by cases h
  | .done, .i _ :: _, _, _, h => by cases h
  | .done, .f _ :: _, _, _, h => by cases h
  | .arr n l, .i j :: p, q, l', h => by
    rw [layAt] at h
    split at h
    next hj =>
      rw [List.cons_append, layAt, if_pos hj]
      exact layAt_append l p q l' h
    next => cases h
  | .arr n l, .f _ :: p, q, l', h => by cases h
  | .field nm l rest, .f x :: p, q, l', h => by
    rw [layAt] at h
    rw [List.cons_append, layAt]
    split at h
    next hj =>
      rw [if_pos hj]
      exact layAt_append l p q l' h
    next hj =>
      rw [if_neg hj]
      exact layAt_append rest (.f x :: p) q l' h
  | .field nm l rest, .i _ :: p, q, l', h => by cases h
  | .skip n rest, k :: p, q, l', h => by
    rw [layAt] at h
    · rw [List.cons_append, layAt]
      · exact layAt_append rest (k :: p) q l' h
      all_goals intros; contradiction
    all_goals intros; contradiction

theorem layAt_reads : ∀ (l : Lay) (p : Path) (k : Kind) (b : Nat), layAt l p = some (.prim k) → ∃ r ∈ l.reads b, r.path = p ∧ r.kind = k
  | .prim k', [], k, b, h => by
    cases h
    exact ⟨_, List.mem_singleton.2 rfl, rfl, rfl⟩
  | .arr _ _, [], _, _, h => by cases h
  | .field _ _ _, [], _, _, h => by cases h
  | .skip _ _, [], _, _, h => by cases h
  | .done, [], _, _, h => by cases h
  | .prim _, .i _ :: _, _, _, h => by cases h
  | .prim _, .f _ :: _, _, _, h => by cases h
  | .done, .i _ :: _, _, _, h => by cases h
  | .done, .f _ :: _, _, _, h => by cases h
  | .arr n l, .i j :: p, k, b, h => by
    rw [layAt] at h
    split at h
    next hj =>
      obtain ⟨r, hr, hp, hk⟩ := layAt_reads l p k (b + j * l.size) h
      refine ⟨r.under [.i j], List.mem_flatMap.2 ⟨j, List.mem_range.2 hj, List.mem_map.2 ⟨r, hr, rfl⟩⟩, ?_, hk⟩
      simp [Read.under, hp]
    next => cases h
  | .arr n l, .f _ :: p, _, _, h => by cases h
  | .field nm l rest, .f x :: p, k, b, h => by
    rw [layAt] at h
    split at h
    next hj =>
      obtain ⟨r, hr, hp, hk⟩ := layAt_reads l p k b h
      refine ⟨r.under [.f nm], List.mem_append.2 (.inl (List.mem_map.2 ⟨r, hr, rfl⟩)), ?_, hk⟩
      simp [Read.under, hp, hj]
    next hj =>
      obtain ⟨r, hr, hp, hk⟩ := layAt_reads rest (.f x :: p) k (b + l.size) h
      exact ⟨r, List.mem_append.2 (.inr hr), hp, hk⟩
  | .field nm l rest, .i _ :: p, _, _, h => by cases h
  | .skip n rest, e :: p, k, b, h => by
    rw [layAt] at h
    · exact layAt_reads rest (e :: p) k (b + n) h
    all_goals intros; contradiction

theorem lookup_map (ρ : Path → Val) (p : Path) : ∀ (rs : List Read), (∃ r ∈ rs, r.path = p) →
    (rs.map fun r => (r.path, ρ r.path)).lookup p = some (ρ p)
  | [], h => by simp at h
  | r :: rs, h => by
    rw [List.map_cons, List.lookup_cons]
    by_cases e : p = r.path
    · rw [e]; simp
    · have : (p == r.path) = false := by simpa using e
      rw [this]
      refine lookup_map ρ p rs ?_
      obtain ⟨r', hr', he⟩ := h
      rcases List.mem_cons.1 hr' with rfl | h'
      · exact absurd he.symm e
      · exact ⟨r', h', he⟩

theorem kindAt_reads {l : Lay} {p : Path} {k : Kind} (h : kindAt l p = some k) : ∃ r ∈ l.reads 0, r.path = p ∧ r.kind = k := by
  unfold kindAt at h
  split at h
  next k' e =>
    cases h
    exact layAt_reads l p _ 0 e
  next => cases h

theorem member_object {l : Lay} {p : Path} {k : Kind} (ρ : Path → Val) (h : kindAt l p = some k) : member (object l ρ) p = .ok (ρ p) := by
  obtain ⟨r, hr, hp, _⟩ := kindAt_reads h
  unfold member object
  rw [lookup_map ρ p _ ⟨r, hr, hp⟩]

theorem kindAt_inRange {l : Lay} {p : Path} {k : Kind} {ρ : Path → Val} (hr : l.InRange ρ) (h : kindAt l p = some k) : k.InRange (ρ p) := by
  obtain ⟨r, hm, hp, hk⟩ := kindAt_reads h
  rw [← hp, ← hk]
  exact hr r hm

/-! ### Texts that only use members there are -/

/-- Whether members of a kind have texts of a form. -/
def accepts : Form → Kind → Bool
  | .dec, .u1 | .dec, .flag | .dec, .u2 | .dec, .u4 | .dec, .i4 => true
  | .r4, .r4 => true
  | .r8, .r8 => true
  | .t6, .t6 => true
  | .t8, .t8 => true
  | .t10, .t10 => true
  | .gtime, .mem _ _ => true
  | .cucCoarse, .cuc | .cucFine, .cuc | .cucReal, .cuc => true
  | .name _, .u1 | .name _, .flag | .name _, .u2 | .name _, .u4 => true
  | .spacecraft, .u2 => true
  | .unit, .u4 => true
  | .byte i, .mem n _ => i < n
  | .dcr _, .mem _ _ => true
  | .status, .mem _ _ => true
  | _, _ => false

/-- Whether members of a kind can be conditions. -/
def conditions : Kind → Bool
  | .u1 | .flag | .u2 | .u4 | .i4 | .t6 => true
  | _ => false

/-- Whether an item only uses members of the layout. -/
def fitsItem (l : Lay) (x : Item) : Bool :=
  (x.guards.all fun g => match kindAt l g with
    | some k => conditions k
    | none => false) &&
  match x.what with
  | .value p f _ _ _ => match kindAt l p with
    | some k => accepts f k
    | none => false
  | .bar p n i => decide (i < n) && match layAt l p with
    | some (.arr m (.prim .u4)) => decide (n ≤ m)
    | _ => false
  | _ => true

/-- Whether a text only uses members of the layout. -/
def fits (l : Lay) (t : Text) : Bool := t.all (fitsItem l)

theorem fits_append {l : Lay} {a b : Text} (ha : fits l a = true) (hb : fits l b = true) : fits l (a ++ b) = true := by
  unfold fits at *
  rw [List.all_append, ha, hb]; rfl

theorem fits_each {l : Lay} {n : Nat} {f : Nat → Text} (h : ∀ i, i < n → fits l (f i) = true) : fits l (each n f) = true := by
  unfold fits each at *
  rw [List.all_eq_true]
  intro x hx
  obtain ⟨i, hi, hx⟩ := List.mem_flatMap.1 hx
  exact List.all_eq_true.1 (h i (List.mem_range.1 hi)) x hx

theorem kindAt_append {l l' : Lay} {p : Path} (h : layAt l p = some l') (q : Path) : kindAt l (p ++ q) = kindAt l' q := by
  unfold kindAt
  rw [layAt_append l p q l' h]

theorem fits_sub {l l' : Lay} {p : Path} {t : Text} (h : layAt l p = some l') (ht : fits l' t = true) : fits l (sub p t) = true := by
  unfold fits sub at *
  rw [List.all_eq_true] at *
  intro y hy
  obtain ⟨x, hx, rfl⟩ := List.mem_map.1 hy
  have hx := ht x hx
  unfold fitsItem at *
  rw [Bool.and_eq_true] at *
  obtain ⟨h1, h2⟩ := hx
  constructor
  · rw [List.all_eq_true] at *
    intro g hg
    obtain ⟨g', hg', rfl⟩ := List.mem_map.1 hg
    rw [kindAt_append h]
    exact h1 g' hg'
  · rcases x with ⟨gs, w⟩
    cases w with
    | lit | index | endl => rfl
    | value q f k c a =>
      dsimp only [Item.under] at *
      rw [kindAt_append h]
      exact h2
    | bar q n i =>
      dsimp only [Item.under] at *
      rw [layAt_append l p q l' h]
      exact h2

theorem fits_when {l : Lay} {p : Path} {t : Text} {k : Kind} (h : kindAt l p = some k) (hk : conditions k = true) (ht : fits l t = true) :
    fits l (RecordTexts.when p t) = true := by
  unfold fits RecordTexts.when at *
  rw [List.all_eq_true] at *
  intro y hy
  obtain ⟨x, hx, rfl⟩ := List.mem_map.1 hy
  have hx := ht x hx
  unfold fitsItem at *
  rw [Bool.and_eq_true] at *
  refine ⟨?_, hx.2⟩
  rw [List.all_cons, hx.1, h, Bool.and_true]
  exact hk

theorem holds_defined {l : Lay} {ρ : Path → Val} (hr : l.InRange ρ) : ∀ (gs : List Path),
    (gs.all fun g => match kindAt l g with
      | some k => conditions k
      | none => false) = true → ∃ b, holds (object l ρ) gs = .ok b
  | [], _ => ⟨true, rfl⟩
  | g :: gs, h => by
    rw [List.all_cons, Bool.and_eq_true] at h
    obtain ⟨h1, h2⟩ := h
    cases e : kindAt l g with
    | none => rw [e] at h1; cases h1
    | some k =>
      rw [e] at h1
      dsimp only at h1
      have hin := kindAt_inRange hr e
      obtain ⟨b, hb⟩ : ∃ b, nonzero (ρ g) = .ok b := by
        revert hin
        cases k <;> cases ρ g <;> intro hin <;> first | exact ⟨_, rfl⟩ | (cases hin; done) | cases h1
      obtain ⟨c, hc⟩ := holds_defined hr gs h2
      unfold holds
      rw [member_object ρ e]
      simp only [Outcome.ok_bind, hb]
      cases b with
      | true => exact ⟨c, hc⟩
      | false => exact ⟨false, rfl⟩

theorem insert24_ok {s : Bytes} (h : 24 ≤ s.length) (t : Bytes) : ∃ r, TimeTexts.insert24 s t = .ok r := by
  unfold TimeTexts.insert24
  rw [if_neg (by omega)]
  exact ⟨_, rfl⟩

/-! ### Bars -/

theorem counts_object {l : Lay} {ρ : Path → Val} (hr : l.InRange ρ) {p : Path} {m : Nat} (h : layAt l p = some (.arr m (.prim .u4))) :
    ∀ n, n ≤ m → ∃ cs, counts (object l ρ) p n = .ok cs ∧ cs.length = n ∧ ∀ i (hi : i < cs.length), ρ (p ++ [.i i]) = .nat cs[i]
  | 0, _ => ⟨[], rfl, rfl, by simp⟩
  | n + 1, hn => by
    obtain ⟨cs, hc, hl, hv⟩ := counts_object hr h n (by omega)
    have hk : kindAt l (p ++ [.i n]) = some .u4 := by
      rw [kindAt_append h]
      unfold kindAt
      rw [show layAt (.arr m (.prim .u4)) [.i n] = some (.prim .u4) by
        rw [layAt, if_pos (by omega)]; rfl]
    have hin := kindAt_inRange hr hk
    have hv' : ∃ c, ρ (p ++ [.i n]) = .nat c := by
      revert hin
      cases ρ (p ++ [.i n]) <;> intro hin
      · exact ⟨_, rfl⟩
      all_goals cases hin
    obtain ⟨c, hcv⟩ := hv'
    refine ⟨cs ++ [c], ?_, by simp [hl], ?_⟩
    · unfold counts
      rw [hc]
      simp only [Outcome.ok_bind]
      rw [member_object ρ hk]
      simp only [Outcome.ok_bind, hcv]
      rfl
    · intro i hi
      rw [List.length_append, List.length_singleton, hl] at hi
      by_cases e : i = n
      · subst e
        rw [hcv, List.getElem_append_right (by omega)]
        simp [hl]
      · rw [List.getElem_append_left (by omega)]
        exact hv i (by omega)

theorem foldl_max (cs : List Nat) : ∀ m, cs.foldl (fun m c => if m < c then c else m) m = cs.foldl max m := by
  induction cs with
  | nil => intro m; rfl
  | cons c cs ih =>
    intro m
    rw [List.foldl_cons, List.foldl_cons, ih]
    congr 1
    by_cases h : m < c
    · rw [if_pos h, Nat.max_eq_right (by omega)]
    · rw [if_neg h, Nat.max_eq_left (by omega)]

theorem le_foldl_max (cs : List Nat) : ∀ m, m ≤ cs.foldl max m ∧ (∀ c ∈ cs, c ≤ cs.foldl max m) ∧
    (cs.foldl max m = m ∨ cs.foldl max m ∈ cs) := by
  induction cs with
  | nil => intro m; simp
  | cons d cs ih =>
    intro m
    obtain ⟨h1, h2, h3⟩ := ih (max m d)
    rw [List.foldl_cons]
    refine ⟨by omega, ?_, ?_⟩
    · intro c hc
      rcases List.mem_cons.1 hc with rfl | hc
      · omega
      · exact h2 c hc
    · rcases h3 with h3 | h3
      · rw [h3]
        by_cases h : m < d
        · rw [Nat.max_eq_right (by omega)]; exact .inr (by simp)
        · rw [Nat.max_eq_left (by omega)]; exact .inl rfl
      · exact .inr (List.mem_cons_of_mem _ h3)

/-- The greatest of counts. -/
theorem maxistogram_spec (cs : List Nat) : ∃ m, (∀ c ∈ cs, c ≤ m) ∧ (m = 0 ∨ m ∈ cs) ∧ maxistogram cs = if m = 0 then 1 else m / 76 := by
  obtain ⟨_, h2, h3⟩ := le_foldl_max cs 0
  refine ⟨cs.foldl max 0, h2, h3, ?_⟩
  unfold maxistogram
  rw [foldl_max]

theorem maxistogram_pos {cs : List Nat} (h : (∀ c ∈ cs, c = 0) ∨ ∃ c ∈ cs, 76 ≤ c) : maxistogram cs ≠ 0 := by
  obtain ⟨m, h2, h3, e⟩ := maxistogram_spec cs
  rw [e]
  rcases h with h | ⟨c, hc, h⟩
  · have : m = 0 := by
      rcases h3 with h3 | h3
      · exact h3
      · exact h m h3
    rw [if_pos this]; decide
  · have := h2 c hc
    rw [if_neg (by omega)]
    omega

theorem maxistogram_zero {cs : List Nat} (h : ∃ c ∈ cs, c ≠ 0) (h' : ∀ c ∈ cs, c < 76) : maxistogram cs = 0 := by
  obtain ⟨m, h2, h3, e⟩ := maxistogram_spec cs
  obtain ⟨c, hc, h⟩ := h
  have := h2 c hc
  rw [e, if_neg (by omega)]
  rcases h3 with h3 | h3
  · omega
  · have := h' m h3
    omega

/-! ### Defined texts -/

theorem fmt0_length (w : Nat) (v : Int) : w ≤ (fmt0 w v).length := by
  unfold fmt0
  split
  · simp only [List.length_cons, List.length_append, List.length_replicate]; omega
  · simp only [List.length_append, List.length_replicate]; omega

theorem shortText_length (c : Time.CdsShort) : 24 ≤ (TimeTexts.shortText c).length := by
  unfold TimeTexts.shortText
  generalize XritDataset.gmtime c.unixtime = g
  rcases g with ⟨y, m, d, h, mi⟩
  dsimp only
  unfold TimeTexts.strftime
  simp only [List.length_append]
  have h1 := fmt0_length 4 y
  have h2 := fmt0_length 2 m
  have h3 := fmt0_length 2 d
  have h4 := fmt0_length 2 h
  have h5 := fmt0_length 2 mi
  have h6 := fmt0_length 2 (((c.unixtime + 378691200).toNat % 60 : Nat) : Int)
  have h7 := fmt0_length 3 c.usecs
  have e1 : (str "-").length = 1 := rfl
  have e2 : (str ":").length = 1 := rfl
  have e3 : (str " ").length = 1 := rfl
  have e4 : (str " +").length = 2 := rfl
  rw [e1, e2, e3, e4]
  omega

theorem valueText_defined (w : World) {f : Form} {k : Kind} {v : Val} (h : accepts f k = true) (hv : k.InRange v) :
    ∃ s, valueText w f v = .ok s := by
  cases f with
  | t8 =>
    cases k <;> first | exact absurd h Bool.false_ne_true | skip
    cases v <;> first | exact hv.elim | skip
    unfold valueText
    dsimp only
    unfold TimeTexts.cdsText
    exact insert24_ok (shortText_length _) _
  | t10 =>
    cases k <;> first | exact absurd h Bool.false_ne_true | skip
    cases v <;> first | exact hv.elim | skip
    unfold valueText
    dsimp only
    unfold TimeTexts.expandedText
    exact insert24_ok (shortText_length _) _
  | byte i =>
    cases k <;> first | exact absurd h Bool.false_ne_true | skip
    cases v <;> first | exact hv.elim | skip
    rename_i n cap b
    have hi : i < b.length := by
      rw [hv.1]
      exact of_decide_eq_true h
    refine ⟨decimal (b[i]).toNat, ?_⟩
    unfold valueText
    dsimp only
    rw [List.getElem?_eq_getElem hi]
  | _ =>
    cases k <;> first | exact absurd h Bool.false_ne_true | skip
    all_goals cases v <;> first | exact hv.elim | exact ⟨_, rfl⟩

theorem bar_defined {l : Lay} {ρ : Path → Val} (w : World) (hr : l.InRange ρ) {p : Path} {n i : Nat}
    (h : (decide (i < n) && match layAt l p with
      | some (.arr m (.prim .u4)) => decide (n ≤ m)
      | _ => false) = true) (hs : Showable ρ p n) : ∃ s, whatText w (object l ρ) (.bar p n i) = .ok s := by
  rw [Bool.and_eq_true] at h
  obtain ⟨h1, h2⟩ := h
  split at h2
  next m e =>
    obtain ⟨cs, hc, hl, hv⟩ := counts_object hr e n (of_decide_eq_true h2)
    unfold whatText
    dsimp only
    rw [hc]
    simp only [Outcome.ok_bind]
    unfold barText
    rw [List.getElem?_eq_getElem (by rw [hl]; exact of_decide_eq_true h1)]
    dsimp only
    rw [if_neg]
    · exact ⟨_, rfl⟩
    · refine maxistogram_pos ?_
      rcases hs with hs | ⟨j, c, hj, hc', h76⟩
      · refine .inl fun c hc => ?_
        obtain ⟨j, hj, rfl⟩ := List.mem_iff_getElem.1 hc
        have := hs j (by omega)
        rw [hv j hj] at this
        exact Val.nat.inj this
      · refine .inr ⟨c, ?_, h76⟩
        have := hv j (by omega)
        rw [hc'] at this
        rw [Val.nat.inj this]
        exact List.getElem_mem _
  next => cases h2

theorem item_defined {l : Lay} {ρ : Path → Val} (w : World) (hr : l.InRange ρ) {x : Item} (h : fitsItem l x = true)
    (hs : ∀ p n i, x.what = .bar p n i → Showable ρ p n) : ∃ s, itemText w (object l ρ) x = .ok s := by
  unfold fitsItem at h
  rw [Bool.and_eq_true] at h
  obtain ⟨h1, h2⟩ := h
  obtain ⟨b, hb⟩ := holds_defined hr x.guards h1
  unfold itemText
  rw [hb]
  simp only [Outcome.ok_bind]
  cases b with
  | false => exact ⟨_, rfl⟩
  | true =>
    rw [if_pos rfl]
    rcases x with ⟨gs, wh⟩
    cases wh with
    | lit | index | endl => exact ⟨_, rfl⟩
    | bar p n i => exact bar_defined w hr h2 (hs p n i rfl)
    | value p f k c a =>
      dsimp only at h2
      cases e : kindAt l p with
      | none => rw [e] at h2; cases h2
      | some kd =>
        rw [e] at h2
        obtain ⟨s, hs'⟩ := valueText_defined w h2 (kindAt_inRange hr e)
        refine ⟨pad k c s, ?_⟩
        unfold whatText
        dsimp only
        rw [member_object ρ e]
        simp only [Outcome.ok_bind, hs']
        rfl

theorem print_defined {l : Lay} {ρ : Path → Val} (w : World) (hr : l.InRange ρ) : ∀ (t : Text), fits l t = true →
    (∀ x ∈ t, ∀ p n i, x.what = .bar p n i → Showable ρ p n) → ∃ s, print w (object l ρ) t = .ok s
  | [], _, _ => ⟨[], rfl⟩
  | x :: xs, h, hs => by
    unfold fits at h
    rw [List.all_cons, Bool.and_eq_true] at h
    obtain ⟨a, ha⟩ := item_defined w hr h.1 (hs x (by simp))
    obtain ⟨b, hb⟩ := print_defined w hr xs h.2 fun y hy => hs y (List.mem_cons_of_mem _ hy)
    refine ⟨a ++ b, ?_⟩
    unfold print
    rw [ha, hb]
    rfl

end Msat.RecordTexts
