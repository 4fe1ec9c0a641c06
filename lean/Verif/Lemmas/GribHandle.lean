import Mathlib.Data.List.Perm.Basic
import Mathlib.Data.List.Nodup
import Mathlib.Tactic.SplitIfs
import Verif.Lemmas.Outcome
import Verif.Spec.GribHandle

/-
Lemmas on the objects of the GRIB library and on reading keys.
-/
namespace Msat.GribHandle
open Msat GribHandleSpec

/-! ### Objects -/

/-- What the object at a place owns. -/
def ownedBy : Option Obj → List Nat
  | some x => x.owned
  | none => []

theorem held_eq (s : State) : held s = s.objs.flatMap ownedBy := by
  unfold held
  rfl

theorem count_set (n : Nat) : ∀ (l : List (Option Obj)) (o : Nat) (x : Option Obj) (y : Option Obj), l[o]? = some x →
    ((l.set o y).flatMap ownedBy).count n + (ownedBy x).count n = (l.flatMap ownedBy).count n + (ownedBy y).count n := by
  intro l
  induction l with
  | nil => intro o x y h; simp at h
  | cons a l ih =>
    intro o x y h
    cases o with
    | zero =>
      simp only [List.getElem?_cons_zero, Option.some.injEq] at h
      subst h
      simp only [List.set_cons_zero, List.flatMap_cons, List.count_append]
      omega
    | succ o =>
      simp only [List.getElem?_cons_succ] at h
      have := ih o x y h
      simp only [List.set_cons_succ, List.flatMap_cons, List.count_append]
      omega

theorem get_ok {s : State} {o : Nat} {x : Obj} (h : s.get o = .ok x) : s.objs[o]? = some (some x) := by
  unfold State.get at h
  split at h
  · rename_i y hy
    injection h with h
    rw [hy, h]
  · cases h

theorem get_of {s : State} {o : Nat} {x : Obj} (h : s.objs[o]? = some (some x)) : s.get o = .ok x := by
  unfold State.get
  rw [h]

/-- Everything that was made is in exactly one place. -/
def Inv (s : State) : Prop := ∀ n, (List.range s.made).count n =
  s.released.count n + s.given.count n + s.lost.count n + (s.objs.flatMap ownedBy).count n

theorem traced_ok {x : Obj} (h : traced x = .ok ()) : x.trace.isSome = true := by
  unfold traced at h
  split at h
  · assumption
  · cases h

theorem count_fresh (made : Nat) (ok : Bool) (n : Nat) :
    (List.range (fresh made ok).2).count n = (List.range made).count n + (fresh made ok).1.toList.count n := by
  unfold fresh
  cases ok
  · simp
  · simp only [if_true, Option.toList_some, List.range_succ, List.count_append]

theorem count_owned (x : Obj) (n : Nat) : (ownedBy (some x)).count n = x.trace.toList.count n + x.gh.toList.count n + x.fp.toList.count n := by
  show (x.owned).count n = _
  unfold Obj.owned
  simp only [List.count_append]

theorem set_other {l : List (Option Obj)} {a b : Nat} {x : Option Obj} (h : a ≠ b) : (l.set a x)[b]? = l[b]? := by
  rw [List.getElem?_set]
  simp [h]

theorem step_inv {s s' : State} (hi : Inv s) (op : Op) (h : step s op = .ok s') : Inv s' := by
  intro n
  have hn := hi n
  cases op with
  | construct t =>
    injection h with h
    subst h
    have := count_fresh s.made t n
    simp only [List.flatMap_append, List.flatMap_cons, List.flatMap_nil, List.append_nil, List.count_append, count_owned,
      Option.toList_none, List.count_nil]
    omega
  | adopt t =>
    injection h with h
    subst h
    have := count_fresh (s.made + 1) t n
    simp only [List.range_succ, List.count_append] at this
    simp only [List.flatMap_append, List.flatMap_cons, List.flatMap_nil, List.append_nil, List.count_append, count_owned,
      Option.toList_none, List.count_nil, Option.toList_some]
    omega
  | move o =>
    obtain ⟨x, hx, h⟩ := Outcome.of_bind_ok h
    injection h with h
    subst h
    have := count_set n s.objs o _ (some ⟨none, none, none⟩) (get_ok hx)
    simp only [count_owned, Option.toList_none, List.count_nil] at this
    simp only [List.flatMap_append, List.flatMap_cons, List.flatMap_nil, List.append_nil, List.count_append, count_owned]
    omega
  | assign dst src =>
    obtain ⟨x, hx, h⟩ := Outcome.of_bind_ok h
    obtain ⟨y, hy, h⟩ := Outcome.of_bind_ok h
    split at h
    · injection h with h
      subst h
      exact hn
    · rename_i hne
      injection h with h
      subst h
      have h1 := count_set n s.objs dst _ (some y) (get_ok hx)
      have h2 := count_set n (s.objs.set dst (some y)) src _ (some ⟨none, none, none⟩)
        ((set_other hne).trans (get_ok hy))
      have h3 := count_owned x n
      simp only [count_owned, Option.toList_none, List.count_nil] at h1 h2
      have h4 : x.owned.count n = x.trace.toList.count n + x.gh.toList.count n + x.fp.toList.count n := h3
      simp only [List.count_append]
      omega
  | release o =>
    obtain ⟨x, hx, h⟩ := Outcome.of_bind_ok h
    obtain ⟨-, -, h⟩ := Outcome.of_bind_ok h
    injection h with h
    subst h
    have := count_set n s.objs o _ (some { x with gh := none }) (get_ok hx)
    simp only [count_owned, Option.toList_none, List.count_nil] at this
    simp only [List.count_append]
    omega
  | samples o ok =>
    obtain ⟨x, hx, h⟩ := Outcome.of_bind_ok h
    obtain ⟨-, -, h⟩ := Outcome.of_bind_ok h
    injection h with h
    subst h
    have h0 := count_fresh s.made ok n
    have := count_set n s.objs o _ (some { x with gh := (fresh s.made ok).1 }) (get_ok hx)
    simp only [count_owned] at this
    simp only [List.count_append]
    omega
  | file o opened ok =>
    obtain ⟨x, hx, h⟩ := Outcome.of_bind_ok h
    split at h
    · obtain ⟨-, -, h⟩ := Outcome.of_bind_ok h
      injection h with h
      subst h
      have h0 := count_fresh (s.made + 1) ok n
      simp only [List.range_succ, List.count_append] at h0
      have := count_set n s.objs o _ (some { x with gh := (fresh (s.made + 1) ok).1, fp := some s.made }) (get_ok hx)
      simp only [count_owned, Option.toList_some] at this
      simp only [List.count_append]
      omega
    · injection h with h
      subst h
      have := count_set n s.objs o _ (some { x with fp := none }) (get_ok hx)
      simp only [count_owned, Option.toList_none, List.count_nil] at this
      simp only [List.count_append]
      omega
  | destroy o =>
    obtain ⟨x, hx, h⟩ := Outcome.of_bind_ok h
    injection h with h
    subst h
    have := count_set n s.objs o _ none (get_ok hx)
    have h3 := count_owned x n
    have h4 : x.owned.count n = x.trace.toList.count n + x.gh.toList.count n + x.fp.toList.count n := h3
    have h5 : (ownedBy none).count n = 0 := rfl
    simp only [List.count_append]
    omega

theorem step_lost {s s' : State} (op : Op) (he : Empty s op) (h : step s op = .ok s') : s'.lost = s.lost := by
  cases op with
  | construct t => injection h with h; subst h; rfl
  | adopt t => injection h with h; subst h; rfl
  | move o => obtain ⟨x, hx, h⟩ := Outcome.of_bind_ok h; injection h with h; subst h; rfl
  | assign dst src =>
    obtain ⟨x, hx, h⟩ := Outcome.of_bind_ok h
    obtain ⟨y, hy, h⟩ := Outcome.of_bind_ok h
    split at h <;> (injection h with h; subst h; rfl)
  | release o =>
    obtain ⟨x, hx, h⟩ := Outcome.of_bind_ok h
    obtain ⟨-, -, h⟩ := Outcome.of_bind_ok h
    injection h with h; subst h; rfl
  | samples o ok =>
    obtain ⟨x, hx, h⟩ := Outcome.of_bind_ok h
    obtain ⟨-, -, h⟩ := Outcome.of_bind_ok h
    injection h with h; subst h
    show s.lost ++ x.gh.toList = _
    rw [he x hx]
    simp
  | file o opened ok =>
    obtain ⟨x, hx, h⟩ := Outcome.of_bind_ok h
    obtain ⟨e1, e2⟩ := he x hx
    split at h
    · obtain ⟨-, -, h⟩ := Outcome.of_bind_ok h
      injection h with h; subst h
      show s.lost ++ x.gh.toList ++ x.fp.toList = _
      rw [e1, e2]
      simp
    · injection h with h; subst h
      show s.lost ++ x.fp.toList = _
      rw [e2]
      simp
  | destroy o => obtain ⟨x, hx, h⟩ := Outcome.of_bind_ok h; injection h with h; subst h; rfl

theorem runOps_inv : ∀ (ops : List Op) {s s' : State}, Inv s → runOps s ops = .ok s' → Inv s' := by
  intro ops
  induction ops with
  | nil => intro s s' hi h; injection h with h; subst h; exact hi
  | cons op ops ih =>
    intro s s' hi h
    obtain ⟨t, ht, h⟩ := Outcome.of_bind_ok h
    exact ih (step_inv hi op ht) h

theorem runOps_lost : ∀ (ops : List Op) {s s' : State}, AlwaysEmpty s ops → runOps s ops = .ok s' → s'.lost = s.lost := by
  intro ops
  induction ops with
  | nil => intro s s' _ h; injection h with h; subst h; rfl
  | cons op ops ih =>
    intro s s' he h
    obtain ⟨t, ht, h⟩ := Outcome.of_bind_ok h
    rw [ih (he.2 t ht) h, step_lost op he.1 ht]

theorem nothing_inv : Inv nothing := by
  intro n
  simp [nothing]

theorem held_gone {s : State} (h : AllGone s) : s.objs.flatMap ownedBy = [] := by
  rw [List.flatMap_eq_nil_iff]
  intro x hx
  rw [h x hx]
  rfl

/-! ### Keys -/

theorem andThen_ok_iff {α β : Type} (x : Get α) (f : α → Get β) (b : β) :
    x.andThen f = .ok (some b) ↔ ∃ a, x = .ok (some a) ∧ f a = .ok (some b) := by
  unfold Get.andThen
  cases x with
  | ok o =>
    cases o with
    | none =>
      constructor
      · intro h
        simp only [Outcome.bind] at h
        cases h
      · rintro ⟨a, h, -⟩
        cases h
    | some a =>
      constructor
      · intro h
        exact ⟨a, rfl, h⟩
      · rintro ⟨a', h, hf⟩
        injection h with h
        injection h with h
        subst h
        exact hf
  | throws m => constructor <;> intro h <;> [cases h; (obtain ⟨a, h, -⟩ := h; cases h)]
  | ub => constructor <;> intro h <;> [cases h; (obtain ⟨a, h, -⟩ := h; cases h)]
  | terminate => constructor <;> intro h <;> [cases h; (obtain ⟨a, h, -⟩ := h; cases h)]
  | diverges => constructor <;> intro h <;> [cases h; (obtain ⟨a, h, -⟩ := h; cases h)]

/-- Nothing but a value or `griberror`. -/
def Quiet {α : Type} (x : Get α) : Prop := ∃ o, x = .ok o

theorem quiet_andThen {α β : Type} {x : Get α} {f : α → Get β} (hx : Quiet x) (hf : ∀ a, x = .ok (some a) → Quiet (f a)) : Quiet (x.andThen f) := by
  obtain ⟨o, rfl⟩ := hx
  cases o with
  | none => exact ⟨none, rfl⟩
  | some a => exact hf a rfl

theorem getLong_quiet (lib : Lib) (k : String) : Quiet (getLong true lib k) := by
  unfold getLong printed
  cases lib.long k <;> exact ⟨_, rfl⟩

theorem getLong_ok (tolerant : Bool) (lib : Lib) (k : String) (v : Int) : getLong tolerant lib k = .ok (some v) ↔ Has lib k v := by
  unfold getLong printed Has
  cases h : lib.long k with
  | found w => simp
  | notFound => cases tolerant <;> simp
  | error => cases tolerant <;> simp

theorem getLongIfExists_quiet (lib : Lib) (k : String) : Quiet (getLongIfExists true lib k) := by
  unfold getLongIfExists printed
  cases lib.long k <;> exact ⟨_, rfl⟩

theorem getLongIfExists_some (tolerant : Bool) (lib : Lib) (k : String) (v : Int) :
    getLongIfExists tolerant lib k = .ok (some (some v)) ↔ Has lib k v := by
  unfold getLongIfExists printed Has
  cases h : lib.long k with
  | found w => simp
  | notFound => cases tolerant <;> simp
  | error => cases tolerant <;> simp

theorem getLongIfExists_none (lib : Lib) (k : String) :
    getLongIfExists true lib k = .ok (some none) ↔ Lacks lib k := by
  unfold getLongIfExists printed Lacks
  cases h : lib.long k with
  | found w => simp
  | notFound => simp
  | error => simp

theorem getLongOneOf_quiet (lib : Lib) (ks : List String) : Quiet (getLongOneOf true lib ks) := by
  induction ks with
  | nil => exact ⟨_, rfl⟩
  | cons k ks ih =>
    unfold getLongOneOf printed
    cases lib.long k with
    | found v => exact ⟨_, rfl⟩
    | notFound => exact ih
    | error => exact ih

theorem getLongOneOf_ok (lib : Lib) (ks : List String) (v : Int) : getLongOneOf true lib ks = .ok (some v) ↔ First lib.long ks v := by
  induction ks with
  | nil => simp [getLongOneOf, First]
  | cons k ks ih =>
    unfold getLongOneOf printed First
    cases h : lib.long k with
    | found w => simp
    | notFound => simpa using ih
    | error => simpa using ih

theorem getDoubleOneOf_quiet (lib : Lib) (ks : List String) : Quiet (getDoubleOneOf true lib ks) := by
  induction ks with
  | nil => exact ⟨_, rfl⟩
  | cons k ks ih =>
    unfold getDoubleOneOf printed
    cases lib.double k with
    | found v => exact ⟨_, rfl⟩
    | notFound => exact ih
    | error => exact ih

theorem getDoubleOneOf_ok (lib : Lib) (ks : List String) (v : Rat) : getDoubleOneOf true lib ks = .ok (some v) ↔ First lib.double ks v := by
  induction ks with
  | nil => simp [getDoubleOneOf, First]
  | cons k ks ih =>
    unfold getDoubleOneOf printed First
    cases h : lib.double k with
    | found w => simp
    | notFound => simpa using ih
    | error => simpa using ih

theorem toInt_as (v i : Int) : toInt v = i ↔ AsInt v i := by
  unfold toInt AsInt
  constructor
  · intro h
    omega
  · rintro ⟨h1, h2, h3⟩
    omega

theorem formatTime_quiet (lib : Lib) : Quiet (formatTime true lib) := by
  have rest (year : Int) : Quiet ((getLong true lib "month").andThen fun month =>
      (getLong true lib "day").andThen fun day =>
      (getLong true lib "hour").andThen fun hour =>
      (getLong true lib "minute").andThen fun minute =>
      (getLong true lib "second").andThen fun second =>
      .ok (some (Datetime.formatStamp year month day hour minute second))) :=
    quiet_andThen (getLong_quiet _ _) fun _ _ => quiet_andThen (getLong_quiet _ _) fun _ _ => quiet_andThen (getLong_quiet _ _) fun _ _ =>
      quiet_andThen (getLong_quiet _ _) fun _ _ => quiet_andThen (getLong_quiet _ _) fun _ _ => ⟨_, rfl⟩
  unfold formatTime
  refine quiet_andThen (getLong_quiet _ _) fun e _ => ?_
  split
  · exact quiet_andThen (getLong_quiet _ _) fun _ _ => quiet_andThen (getLong_quiet _ _) fun _ _ => rest _
  · split
    · exact quiet_andThen (getLong_quiet _ _) fun y _ => rest y
    · exact ⟨_, rfl⟩

theorem formatTime_ok (lib : Lib) (t : Bytes) : formatTime true lib = .ok (some t) ↔ Time lib t := by
  unfold formatTime
  rw [andThen_ok_iff]
  constructor
  · rintro ⟨e, he, h⟩
    rw [getLong_ok] at he
    split at h
    · rename_i h1
      subst h1
      simp only [andThen_ok_iff, getLong_ok] at h
      obtain ⟨c, hc, y, hy, mo, hmo, d, hd, hh, hhh, mi, hmi, se, hse, ht⟩ := h
      injection ht with ht
      injection ht with ht
      exact ⟨_, mo, d, hh, mi, se, Or.inr ⟨he, c, y, hc, hy, rfl⟩, hmo, hd, hhh, hmi, hse, ht.symm⟩
    · split at h
      · rename_i h1
        subst h1
        simp only [andThen_ok_iff, getLong_ok] at h
        obtain ⟨y, hy, mo, hmo, d, hd, hh, hhh, mi, hmi, se, hse, ht⟩ := h
        injection ht with ht
        injection ht with ht
        exact ⟨_, mo, d, hh, mi, se, Or.inl ⟨he, hy⟩, hmo, hd, hhh, hmi, hse, ht.symm⟩
      · cases h
  · rintro ⟨year, mo, d, hh, mi, se, hy, hmo, hd, hhh, hmi, hse, rfl⟩
    rcases hy with ⟨he, hy⟩ | ⟨he, c, y, hc, hy, rfl⟩
    · refine ⟨2, (getLong_ok ..).2 he, ?_⟩
      rw [if_neg (by decide), if_pos rfl]
      simp only [andThen_ok_iff, getLong_ok]
      exact ⟨_, hy, _, hmo, _, hd, _, hhh, _, hmi, _, hse, rfl⟩
    · refine ⟨1, (getLong_ok ..).2 he, ?_⟩
      rw [if_pos rfl]
      simp only [andThen_ok_iff, getLong_ok]
      exact ⟨_, hc, _, hy, _, hmo, _, hd, _, hhh, _, hmi, _, hse, rfl⟩

theorem channelOf_ok (lib : Lib) (s c : Int) : channelOf true lib s = .ok (some c) ↔ Channel lib s c := by
  unfold channelOf
  rw [andThen_ok_iff]
  constructor
  · rintro ⟨o, ho, h⟩
    cases o with
    | some w =>
      injection h with h
      injection h with h
      subst h
      exact Or.inl ((getLongIfExists_some ..).1 ho)
    | none =>
      rw [getLongIfExists_none] at ho
      dsimp only at h
      rw [andThen_ok_iff] at h
      obtain ⟨o', ho', h⟩ := h
      cases o' with
      | some w =>
        injection h with h
        injection h with h
        subst h
        exact Or.inr (Or.inl ⟨ho, (getLongIfExists_some ..).1 ho'⟩)
      | none =>
        rw [getLongIfExists_none] at ho'
        simp only [andThen_ok_iff, getLong_ok] at h
        obtain ⟨e, he, v, hv, h⟩ := h
        obtain ⟨c', hc', h⟩ := Outcome.of_bind_ok h
        injection h with h
        injection h with h
        subst h
        exact Or.inr (Or.inr ⟨ho, ho', e, v, he, hv, hc'⟩)
  · rintro (h | ⟨h1, h2⟩ | ⟨h1, h2, e, v, he, hv, hc⟩)
    · exact ⟨some c, (getLongIfExists_some ..).2 h, rfl⟩
    · refine ⟨none, (getLongIfExists_none ..).2 h1, ?_⟩
      exact (andThen_ok_iff ..).2 ⟨some c, (getLongIfExists_some ..).2 h2, rfl⟩
    · refine ⟨none, (getLongIfExists_none ..).2 h1, ?_⟩
      refine (andThen_ok_iff ..).2 ⟨none, (getLongIfExists_none ..).2 h2, ?_⟩
      simp only [andThen_ok_iff, getLong_ok]
      refine ⟨e, he, v, hv, ?_⟩
      rw [hc]
      rfl

theorem init_ok (lib : Lib) (d : Dataset) : init true lib = .ok (some d) ↔ Describes lib d := by
  unfold init
  simp only [andThen_ok_iff, getLong_ok, formatTime_ok, getLongOneOf_ok, getDoubleOneOf_ok, channelOf_ok]
  constructor
  · rintro ⟨sx, hx, sy, hy, t, ht, sat, hs, lon, hl, c, hc, h⟩
    split at h
    · rename_i hm
      injection h with h
      injection h with h
      subst h
      exact ⟨⟨sx, hx, (toInt_as ..).1 rfl⟩, ⟨sy, hy, (toInt_as ..).1 rfl⟩, ht, ⟨sat, hs, (toInt_as ..).1 rfl⟩, rfl, hl, hc,
        ⟨toInt c, (toInt_as ..).1 rfl, rfl, rfl, rfl⟩, hm⟩
    · cases h
  · rintro ⟨⟨sx, hx, ex⟩, ⟨sy, hy, ey⟩, ht, ⟨sat, hs, es⟩, hn, hl, hc, ⟨c, ec, h1, h2, h3⟩, hm⟩
    rw [← toInt_as] at ex ey es ec
    refine ⟨sx, hx, sy, hy, d.datetime, ht, sat, hs, d.lon, hl, d.channel, es ▸ hc, ?_⟩
    rw [ec, ← h3, if_pos hm, es, ex, ey, ← hn, ← h1, ← h2]

theorem init_quiet (lib : Lib) (h : ∀ s : Int, First lib.long ["satelliteNumber", "satelliteIdentifier", "indicatorOfTypeOfLevel"] s →
    Quiet (channelOf true lib (toInt s))) : Quiet (init true lib) := by
  unfold init
  refine quiet_andThen (getLong_quiet _ _) fun _ _ => quiet_andThen (getLong_quiet _ _) fun _ _ => quiet_andThen (formatTime_quiet _) fun _ _ =>
    quiet_andThen (getLongOneOf_quiet _ _) fun _ hs => quiet_andThen (getDoubleOneOf_quiet _ _) fun _ _ =>
    quiet_andThen (h _ ((getLongOneOf_ok ..).1 hs)) fun _ _ => ?_
  dsimp only
  split <;> exact ⟨_, rfl⟩

theorem channelOf_quiet (lib : Lib) (s : Int)
    (h : ∀ e v, Lacks lib "channelNumber" → Lacks lib "level" → Has lib "scaleFactorOfCentralWaveNumber" e → Has lib "scaledValueOfCentralWaveNumber" v →
      ∃ c, Facts.channelFromWaveNumber s ((v : Rat) * (10 : Rat) ^ (-e)) = .ok c) : Quiet (channelOf true lib s) := by
  unfold channelOf
  refine quiet_andThen (getLongIfExists_quiet _ _) fun o ho => ?_
  cases o with
  | some c => exact ⟨_, rfl⟩
  | none =>
    refine quiet_andThen (getLongIfExists_quiet _ _) fun o ho' => ?_
    cases o with
    | some c => exact ⟨_, rfl⟩
    | none =>
      refine quiet_andThen (getLong_quiet _ _) fun e he => quiet_andThen (getLong_quiet _ _) fun v hv => ?_
      obtain ⟨c, hc⟩ := h e v ((getLongIfExists_none ..).1 ho) ((getLongIfExists_none ..).1 ho') ((getLong_ok ..).1 he) ((getLong_ok ..).1 hv)
      rw [hc]
      exact ⟨_, rfl⟩

/-! ### The signature -/

theorem takeWhile_holds {α : Type} {p : α → Bool} {l : List α} {x : α} (h : x ∈ l.takeWhile p) : p x = true := by
  induction l with
  | nil => cases h
  | cons a l ih =>
    rw [List.takeWhile_cons] at h
    split at h
    · rcases List.mem_cons.1 h with rfl | h
      · assumption
      · exact ih h
    · cases h

theorem takeWhile_zero (l : Bytes) : ((l ++ [0]).takeWhile (· ≠ 0)).take l.length = l.takeWhile (· ≠ 0) := by
  induction l with
  | nil => rfl
  | cons a l ih =>
    rw [List.cons_append, List.takeWhile_cons, List.takeWhile_cons]
    split
    · rw [List.length_cons, List.take_succ_cons, ih]
    · rfl

theorem signed_iff (f : File) : signed f = true ↔ Signature f.header := by
  unfold signed Signature
  rw [takeWhile_zero, List.any_eq_true]
  simp only [List.mem_tails, List.isPrefixOf_iff_prefix]
  constructor
  · rintro ⟨t, ⟨a, ha⟩, ⟨b, hb⟩⟩
    refine ⟨a, b ++ f.header.dropWhile (· ≠ 0), ?_, ?_⟩
    · rw [← List.append_assoc, List.append_assoc a, hb, ha, List.takeWhile_append_dropWhile]
    · intro h0
      have : (0 : UInt8) ∈ f.header.takeWhile (· ≠ 0) := by rw [← ha]; exact List.mem_append_left _ h0
      simpa using takeWhile_holds this
  · rintro ⟨a, b, h, h0⟩
    refine ⟨str "GRIB" ++ b.takeWhile (· ≠ 0), ⟨a, ?_⟩, ⟨_, rfl⟩⟩
    have e : a ++ str "GRIB" ++ b = (a ++ str "GRIB") ++ b := rfl
    rw [h, e, List.takeWhile_append_of_pos, List.append_assoc]
    intro x hx
    rcases List.mem_append.1 hx with hx | hx
    · exact decide_eq_true (fun e => h0 (e ▸ hx))
    · have : ∀ c ∈ str "GRIB", c ≠ (0 : UInt8) := by decide
      exact decide_eq_true (this x hx)

end Msat.GribHandle
