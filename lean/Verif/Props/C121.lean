import Verif.Spec.Drivers
import Verif.Props.C116
import Verif.Lemmas.Outcome

namespace Msat.Props
open Msat Drivers DriversSpec

/-! ### The list of drivers -/

theorem byName_isNone {F I : Type} (m : List (Driver F I)) (n : String) : (byName m n).isNone = true ↔ ¬ Has m n := by
  unfold byName Has
  rw [Option.isNone_iff_eq_none, List.find?_eq_none]
  constructor
  · rintro h ⟨d, hd, e⟩
    exact h d hd (by simpa using e)
  · intro h d hd e
    exact h ⟨d, hd, by simpa using e⟩

/-- The case of letters does not matter in names of drivers: the driver that is found is the first whose name is the same but for the case. -/
theorem C121_case {F I : Type} (m : List (Driver F I)) (name : String) :
    (∀ d, byName m name = some d ↔ ∃ before after, m = before ++ d :: after ∧ SameName d.name name ∧ ∀ e ∈ before, ¬ SameName e.name name) ∧
    (byName m name = none ↔ ∀ e ∈ m, ¬ SameName e.name name) := by
  have key : ∀ a b : String, (fold a == fold b) = true ↔ SameName a b := by
    intro a b
    unfold fold SameName
    rw [beq_iff_eq, ← List.forall₂_eq_eq_eq, List.forall₂_map_left_iff, List.forall₂_map_right_iff]
  unfold byName
  constructor
  · intro d
    rw [List.find?_eq_some_iff_append, key]
    constructor
    · rintro ⟨h1, before, after, h2, h3⟩
      exact ⟨before, after, h2, h1, fun e he hs => by have := h3 e he; rw [(key _ _).2 hs] at this; cases this⟩
    · rintro ⟨before, after, h2, h1, h3⟩
      refine ⟨h1, before, after, h2, fun e he => ?_⟩
      rw [Bool.not_eq_true']
      exact Bool.eq_false_iff.2 fun h => h3 e he ((key _ _).1 h)
  · rw [List.find?_eq_none]
    exact forall₂_congr fun e _ => by rw [key]

example : SameName "MsatXRIT" "msatxrit" ∧ ¬ SameName "MsatNetCDF" "MsatNetCDF24" := by
  unfold SameName
  constructor
  · decide +kernel
  · intro h
    have := h.length_eq
    revert this
    decide +kernel

/-- What one step may do: nothing, or a driver with a new name at the end. -/
theorem registerOne_cases {F I : Type} (check : Bool) (n : String) (g : F → Outcome (Answer I)) (m : List (Driver F I)) :
    (registerOne check n g m = m ∧ (check = false ∨ Has m n)) ∨ (registerOne check n g m = m ++ [⟨n, g⟩] ∧ check = true ∧ ¬ Has m n) := by
  unfold registerOne register
  cases check with
  | false => exact Or.inl ⟨rfl, Or.inl rfl⟩
  | true =>
    by_cases h : Has m n
    · left
      have := (byName_isNone m n).not.2 (not_not.2 h)
      exact ⟨by simp only [this]; rfl, Or.inr h⟩
    · right
      have := (byName_isNone m n).2 h
      exact ⟨by simp only [this]; rfl, rfl, h⟩

theorem own_cases {F I : Type} (check : Bool) (o : Opens F I) (d : Driver F I) (m : List (Driver F I)) :
    (step check o m (.own d) = m ∧ Has m d.name) ∨ (step check o m (.own d) = m ++ [d] ∧ ¬ Has m d.name) := by
  unfold step register
  by_cases h : Has m d.name
  · left
    have := (byName_isNone m d.name).not.2 (not_not.2 h)
    exact ⟨by simp only [this]; rfl, h⟩
  · right
    have := (byName_isNone m d.name).2 h
    exact ⟨by simp only [this]; rfl, h⟩

/-- Drivers are added at the end, and their names stay different. -/
def Grows {F I : Type} (m n : List (Driver F I)) : Prop := (∃ l, n = m ++ l) ∧ (Distinct m → Distinct n)

theorem Grows.refl {F I : Type} (m : List (Driver F I)) : Grows m m := ⟨⟨[], by simp⟩, id⟩

theorem Grows.trans {F I : Type} {a b c : List (Driver F I)} (h : Grows a b) (k : Grows b c) : Grows a c := by
  obtain ⟨⟨l, rfl⟩, h⟩ := h
  obtain ⟨⟨r, rfl⟩, k⟩ := k
  exact ⟨⟨l ++ r, by simp⟩, fun x => k (h x)⟩

theorem Grows.has {F I : Type} {a b : List (Driver F I)} (h : Grows a b) {n : String} (k : Has a n) : Has b n := by
  obtain ⟨⟨l, rfl⟩, -⟩ := h
  obtain ⟨d, hd, e⟩ := k
  exact ⟨d, List.mem_append_left _ hd, e⟩

theorem grows_add {F I : Type} (m : List (Driver F I)) (d : Driver F I) (h : ¬ Has m d.name) : Grows m (m ++ [d]) := by
  refine ⟨⟨[d], rfl⟩, fun hm => ?_⟩
  unfold Distinct at *
  rw [List.pairwise_append]
  refine ⟨hm, List.pairwise_singleton _ _, fun a ha b hb e => h ⟨a, ha, ?_⟩⟩
  rw [List.mem_singleton] at hb
  rw [← hb]; exact e

theorem registerOne_grows {F I : Type} (check : Bool) (n : String) (g : F → Outcome (Answer I)) (m : List (Driver F I)) : Grows m (registerOne check n g m) := by
  rcases registerOne_cases check n g m with ⟨h, -⟩ | ⟨h, -, k⟩
  · rw [h]; exact Grows.refl m
  · rw [h]; exact grows_add m ⟨n, g⟩ k

theorem registerMsat_grows {F I : Type} (check : Bool) (o : Opens F I) (m : List (Driver F I)) : Grows m (registerMsat check o m) :=
  (registerOne_grows check _ _ _).trans ((registerOne_grows check _ _ _).trans ((registerOne_grows check _ _ _).trans (registerOne_grows check _ _ _)))

theorem step_grows {F I : Type} (check : Bool) (o : Opens F I) (m : List (Driver F I)) (s : Step F I) : Grows m (step check o m s) := by
  cases s with
  | plugin => exact registerMsat_grows check o m
  | own d =>
    rcases own_cases check o d m with ⟨h, -⟩ | ⟨h, k⟩
    · rw [h]; exact Grows.refl m
    · rw [h]; exact grows_add m d k

theorem gdal_grows {F I : Type} (check : Bool) (o : Opens F I) (steps : List (Step F I)) (m : List (Driver F I)) : Grows m (gdalAllRegister check o steps m) := by
  induction steps generalizing m with
  | nil => exact Grows.refl m
  | cons s ss ih => exact (step_grows check o m s).trans (ih _)

theorem allRegister_ok {F I : Type} (check : Bool) (o : Opens F I) (steps : List (Step F I)) (m n : List (Driver F I)) :
    allRegister check o (some steps) m = .ok n ↔ n = gdalAllRegister check o steps (registerMsat check o m) := by
  unfold allRegister
  constructor
  · intro h; exact (Outcome.ok.inj h).symm
  · intro h; rw [h]

theorem calls_grow {F I : Type} {check : Bool} {o : Opens F I} {cs : List (Call F I)} {m r : List (Driver F I)} (h : Calls check o cs m r) : Grows m r := by
  induction h with
  | nil m => exact Grows.refl m
  | plugin h ih => exact (registerMsat_grows check o _).trans ih
  | all steps ha h ih =>
    rw [allRegister_ok] at ha
    rw [ha] at ih
    exact (registerMsat_grows check o _).trans ((gdal_grows check o steps _).trans ih)
  | own d h ih => exact (step_grows check o _ (.own d)).trans ih

/-- Whatever functions a program calls, in any order and any number of times: no two drivers have the same name, and the drivers that were there
stay, in the same order, before the new ones. -/
theorem C121_once {F I : Type} {check : Bool} {o : Opens F I} {cs : List (Call F I)} {m r : List (Driver F I)} (h : Calls check o cs m r)
    (hm : Distinct m) : Distinct r ∧ ∃ l, r = m ++ l := ⟨(calls_grow h).2 hm, (calls_grow h).1⟩

theorem registerOne_has {F I : Type} (n : String) (g : F → Outcome (Answer I)) (m : List (Driver F I)) : Has (registerOne true n g m) n := by
  rcases registerOne_cases true n g m with ⟨h, k⟩ | ⟨h, -⟩
  · rw [h]
    rcases k with k | k
    · cases k
    · exact k
  · rw [h]; exact ⟨⟨n, g⟩, List.mem_append_right _ (by simp), rfl⟩

theorem registerMsat_has {F I : Type} (o : Opens F I) (m : List (Driver F I)) : ∀ n ∈ ourNames, Has (registerMsat true o m) n := by
  have h1 := registerOne_has "MsatXRIT" o.xrit m
  have h2 := registerOne_has "MsatNetCDF" o.netcdf (registerXrit true o m)
  have h3 := registerOne_has "MsatNetCDF24" o.netcdf24 (registerNetcdf true o (registerXrit true o m))
  have h4 := registerOne_has "MsatGRIB" o.grib (registerNetcdf24 true o (registerNetcdf true o (registerXrit true o m)))
  have g2 := registerOne_grows true "MsatNetCDF" o.netcdf (registerXrit true o m)
  have g3 := registerOne_grows true "MsatNetCDF24" o.netcdf24 (registerNetcdf true o (registerXrit true o m))
  have g4 := registerOne_grows true "MsatGRIB" o.grib (registerNetcdf24 true o (registerNetcdf true o (registerXrit true o m)))
  intro n hn
  simp only [ourNames, List.mem_cons, List.not_mem_nil, or_false] at hn
  rcases hn with rfl | rfl | rfl | rfl
  · exact g4.has (g3.has (g2.has h1))
  · exact g4.has (g3.has h2)
  · exact g4.has h3
  · exact h4

/-- Once the plugin is loaded, or `GDALAllRegister` called with the library preloaded, each of the four drivers is there for the rest of the
program, by its name. -/
theorem C121_there {F I : Type} {o : Opens F I} {before after : List (Call F I)} {c : Call F I} {m r : List (Driver F I)}
    (hc : c = .plugin ∨ ∃ steps, c = .all steps) (h : Calls true o (before ++ c :: after) m r) : ∀ n ∈ ourNames, ∃ d, byName r n = some d := by
  have key : ∀ n ∈ ourNames, Has r n := by
    intro n hn
    induction before generalizing m with
    | nil =>
      rcases hc with rfl | ⟨steps, rfl⟩
      · cases h with
        | plugin h => exact (calls_grow h).has (registerMsat_has o m n hn)
      · cases h with
        | all _ ha h =>
          rw [allRegister_ok] at ha
          rw [ha] at h
          exact (calls_grow h).has ((gdal_grows true o steps _).has (registerMsat_has o m n hn))
    | cons b bs ih =>
      cases h with
      | plugin h => exact ih h
      | all _ _ h => exact ih h
      | own _ h => exact ih h
  intro n hn
  cases e : byName r n with
  | some d => exact ⟨d, rfl⟩
  | none => exact absurd (key n hn) ((byName_isNone r n).1 (by rw [e]; rfl))

theorem names_apart : (ourNames.map fold).Nodup := by decide +kernel

theorem ours_names {F I : Type} (o : Opens F I) : (ours o).map (·.name) = ourNames := rfl

theorem not_has_append {F I : Type} {m l : List (Driver F I)} {n : String} (h : ¬ Has m n) (k : ∀ d ∈ l, fold d.name ≠ fold n) : ¬ Has (m ++ l) n := by
  rintro ⟨d, hd, e⟩
  rcases List.mem_append.1 hd with hd | hd
  · exact h ⟨d, hd, e⟩
  · exact k d hd e

/-- Registration where none of the names is taken. -/
theorem registerMsat_new {F I : Type} (o : Opens F I) (m : List (Driver F I)) (h : ∀ n ∈ ourNames, ¬ Has m n) : registerMsat true o m = m ++ ours o := by
  have a12 : fold "MsatXRIT" ≠ fold "MsatNetCDF" := by decide +kernel
  have a13 : fold "MsatXRIT" ≠ fold "MsatNetCDF24" := by decide +kernel
  have a14 : fold "MsatXRIT" ≠ fold "MsatGRIB" := by decide +kernel
  have a23 : fold "MsatNetCDF" ≠ fold "MsatNetCDF24" := by decide +kernel
  have a24 : fold "MsatNetCDF" ≠ fold "MsatGRIB" := by decide +kernel
  have a34 : fold "MsatNetCDF24" ≠ fold "MsatGRIB" := by decide +kernel
  have new : ∀ (n : String) (g : F → Outcome (Answer I)) (l : List (Driver F I)), ¬ Has l n → registerOne true n g l = l ++ [⟨n, g⟩] := by
    intro n g l hl
    rcases registerOne_cases true n g l with ⟨-, k⟩ | ⟨h, -⟩
    · rcases k with k | k
      · cases k
      · exact absurd k hl
    · exact h
  have h1 : registerXrit true o m = m ++ [⟨"MsatXRIT", o.xrit⟩] := new _ _ _ (h _ (by simp [ourNames]))
  have h2 : registerNetcdf true o (registerXrit true o m) = m ++ [⟨"MsatXRIT", o.xrit⟩, ⟨"MsatNetCDF", o.netcdf⟩] := by
    rw [h1]
    unfold registerNetcdf
    rw [new]
    · simp
    · refine not_has_append (h _ (by simp [ourNames])) ?_
      simp [a12]
  have h3 : registerNetcdf24 true o (registerNetcdf true o (registerXrit true o m)) =
      m ++ [⟨"MsatXRIT", o.xrit⟩, ⟨"MsatNetCDF", o.netcdf⟩, ⟨"MsatNetCDF24", o.netcdf24⟩] := by
    rw [h2]
    unfold registerNetcdf24
    rw [new]
    · simp
    · refine not_has_append (h _ (by simp [ourNames])) ?_
      simp [a13, a23]
  unfold registerMsat
  rw [h3]
  unfold registerGrib ours
  rw [new]
  · simp
  · refine not_has_append (h _ (by simp [ourNames])) ?_
    simp [a14, a24, a34]

theorem registerMsat_again {F I : Type} (check : Bool) (o : Opens F I) (m : List (Driver F I)) (h : ∀ n ∈ ourNames, Has m n) : registerMsat check o m = m := by
  have old : ∀ (n : String) (g : F → Outcome (Answer I)) (l : List (Driver F I)), Has l n → registerOne check n g l = l := by
    intro n g l hl
    rcases registerOne_cases check n g l with ⟨h, -⟩ | ⟨-, -, k⟩
    · exact h
    · exact absurd hl k
  unfold registerMsat registerXrit registerNetcdf registerNetcdf24 registerGrib
  rw [old "MsatXRIT" o.xrit m (h _ (by simp [ourNames])), old "MsatNetCDF" o.netcdf m (h _ (by simp [ourNames])),
    old "MsatNetCDF24" o.netcdf24 m (h _ (by simp [ourNames])), old "MsatGRIB" o.grib m (h _ (by simp [ourNames]))]

/-- Loading the drivers again does nothing. -/
theorem C121_again {F I : Type} (check : Bool) (o : Opens F I) (m : List (Driver F I)) :
    registerMsat check o (registerMsat check o m) = registerMsat check o m := by
  cases check with
  | true => exact registerMsat_again true o _ (registerMsat_has o m)
  | false => rfl

theorem ours_has {F I : Type} (o : Opens F I) (l : List (Driver F I)) : ∀ n ∈ ourNames, Has (ours o ++ l) n := by
  intro n hn
  rw [← ours_names o] at hn
  obtain ⟨d, hd, e⟩ := List.mem_map.1 hn
  exact ⟨d, List.mem_append_left _ hd, by rw [← e]⟩

theorem not_ours {F I : Type} (o : Opens F I) {d : Driver F I} (hd : Foreign d) {l : List (Driver F I)} (hl : ∀ e ∈ l, fold e.name ≠ fold d.name) :
    ¬ Has (ours o ++ l) d.name := by
  rintro ⟨e, he, k⟩
  rcases List.mem_append.1 he with he | he
  · have : e.name ∈ ourNames := by rw [← ours_names o]; exact List.mem_map.2 ⟨e, he, rfl⟩
    exact hd _ this k.symm
  · exact hl e he k

/-- GDAL's own drivers, with the plugin loaded any number of times among them, after ours. -/
theorem gdal_after {F I : Type} (o : Opens F I) (steps : List (Step F I)) (l : List (Driver F I))
    (h : OwnDrivers (l ++ steps.filterMap fun s => match s with | .plugin => none | .own d => some d)) :
    gdalAllRegister true o steps (ours o ++ l) = ours o ++ (l ++ steps.filterMap fun s => match s with | .plugin => none | .own d => some d) := by
  induction steps generalizing l with
  | nil => simp [gdalAllRegister]
  | cons s ss ih =>
    cases s with
    | plugin =>
      have e : gdalAllRegister true o (.plugin :: ss) (ours o ++ l) = gdalAllRegister true o ss (registerMsat true o (ours o ++ l)) := rfl
      rw [e, registerMsat_again true o _ (ours_has o l)]
      simpa using ih l (by simpa using h)
    | own d =>
      have hd : ¬ Has (ours o ++ l) d.name := by
        refine not_ours o (h.2 d (by simp)) ?_
        intro e he
        have := h.1
        unfold Distinct at this
        rw [List.pairwise_append] at this
        exact this.2.2 e he d (by simp)
      have e : gdalAllRegister true o (.own d :: ss) (ours o ++ l) = gdalAllRegister true o ss (step true o (ours o ++ l) (.own d)) := rfl
      rcases own_cases true o d (ours o ++ l) with ⟨-, k⟩ | ⟨k, -⟩
      · exact absurd k hd
      · rw [e, k, List.append_assoc, ih (l ++ [d]) (by simpa using h)]
        simp

/-- With the library preloaded, the first call of `GDALAllRegister` of a program gives the drivers of meteosatlib, and then those of GDAL, whether or
not GDAL also loads the plugin, any number of times. -/
theorem C121_first {F I : Type} (o : Opens F I) (steps : List (Step F I)) (own : List (Driver F I))
    (hs : own = steps.filterMap fun s => match s with | .plugin => none | .own d => some d) (h : OwnDrivers own) :
    allRegister true o (some steps) [] = .ok (ours o ++ own) := by
  rw [allRegister_ok, registerMsat_new o [] (by rintro n - ⟨d, hd, -⟩; cases hd), List.nil_append]
  have := gdal_after o steps [] (by rw [List.nil_append, ← hs]; exact h)
  rw [List.append_nil, List.nil_append, ← hs] at this
  exact this.symm

/-! ### Opening files -/

/-- A file is opened by the first driver that can: those before it all leave it. -/
theorem C121_search {F I : Type} (stops : Bool) (m : List (Driver F I)) (f : F) (i : I) :
    openWith stops m f = .ok (some i) ↔ ∃ d, OpenedBy stops m f d i := by
  induction m with
  | nil =>
    constructor
    · intro h; cases (Outcome.ok.inj h)
    · rintro ⟨d, l, r, h, -⟩; exact absurd h (by simp)
  | cons e m ih =>
    have split : (∃ d, OpenedBy stops (e :: m) f d i) ↔ e.openFile f = .ok (.opened i) ∨ (Passes stops f e ∧ ∃ d, OpenedBy stops m f d i) := by
      constructor
      · rintro ⟨d, l, r, h, hl, hd⟩
        cases l with
        | nil =>
          rw [List.nil_append] at h
          rw [(List.cons.inj h).1]; exact Or.inl hd
        | cons x l =>
          rw [List.cons_append] at h
          obtain ⟨rfl, h'⟩ := List.cons.inj h
          exact Or.inr ⟨hl _ (List.mem_cons_self ..), d, l, r, h', fun y hy => hl y (List.mem_cons_of_mem _ hy), hd⟩
      · rintro (h | ⟨h, d, l, r, hm, hl, hd⟩)
        · exact ⟨e, [], m, rfl, by simp, h⟩
        · refine ⟨d, e :: l, r, by rw [hm]; rfl, ?_, hd⟩
          intro y hy
          rcases List.mem_cons.1 hy with rfl | hy
          · exact h
          · exact hl y hy
    rw [split, ← ih]
    show Outcome.bind (e.openFile f) _ = _ ↔ _
    cases he : e.openFile f with
    | ok a =>
      cases a with
      | opened j => simp [Passes, he, Outcome.bind, pure]
      | refused => simp [Passes, he, Outcome.bind]
      | failed =>
        cases stops with
        | true => simp [Passes, he, Outcome.bind, pure]
        | false => simp [Passes, he, Outcome.bind]
    | throws t => simp [Passes, he, Outcome.bind]
    | ub => simp [Passes, he, Outcome.bind]
    | terminate => simp [Passes, he, Outcome.bind]
    | diverges => simp [Passes, he, Outcome.bind]

theorem openWith_passes {F I : Type} (stops : Bool) (l r : List (Driver F I)) (f : F) (h : ∀ e ∈ l, Passes stops f e) :
    openWith stops (l ++ r) f = openWith stops r f := by
  induction l with
  | nil => rfl
  | cons e l ih =>
    rw [← ih (fun x hx => h x (List.mem_cons_of_mem _ hx))]
    show Outcome.bind (e.openFile f) _ = _
    rcases h e (List.mem_cons_self ..) with k | ⟨rfl, k⟩
    · rw [k]; rfl
    · rw [k]; rfl

/-- Files that no driver of meteosatlib recognises are opened as they are without meteosatlib: the same image, the null pointer or whatever else. -/
theorem C121_others {F I : Type} (stops : Bool) (o : Opens F I) (own : List (Driver F I)) (f : F) (h1 : o.xrit f = .ok .refused)
    (h2 : o.netcdf f = .ok .refused) (h3 : o.netcdf24 f = .ok .refused) (h4 : o.grib f = .ok .refused) :
    openWith stops (ours o ++ own) f = openWith stops own f := by
  apply openWith_passes
  intro e he
  simp only [ours, List.mem_cons, List.not_mem_nil, or_false] at he
  rcases he with rfl | rfl | rfl | rfl
  · exact Or.inl h1
  · exact Or.inl h2
  · exact Or.inl h3
  · exact Or.inl h4

/-- Files that a driver of meteosatlib opens, and that those of meteosatlib before it leave, are opened by it, whatever the drivers of GDAL say. -/
theorem C121_ours {F I : Type} (stops : Bool) (o : Opens F I) (own : List (Driver F I)) (f : F) (i : I) :
    (∃ d, OpenedBy stops (ours o) f d i) → openWith stops (ours o ++ own) f = .ok (some i) := by
  rintro ⟨d, l, r, h, hl, hd⟩
  exact (C121_search stops _ f i).2 ⟨d, l, r ++ own, by rw [h]; simp, hl, hd⟩

/-! ### NetCDF files -/

open NetcdfAnySpec in
/-- What the driver for NetCDF says of a file: it opens those of meteosatlib with a time, it leaves those without a satellite, and the others are
failures. -/
theorem C121_netcdf (f : NetcdfAny.File) :
    (∀ i, netcdfOpen f = .opened i ↔ NetcdfAny.openFile f = some i) ∧
    (netcdfOpen f = .refused ↔ f.isFile = false ∨ f.valid = false ∨ f.att "Satellite" = none) := by
  unfold netcdfOpen NetcdfAny.openFile
  cases f.isFile with
  | false => simp
  | true =>
    cases f.valid with
    | false => simp
    | true =>
      cases f.att "Satellite" with
      | none => simp
      | some a =>
        cases NetcdfAny.init f <;> simp

/-- What the driver for NetCDF-24 says of a file: it leaves those without an edition number. -/
theorem C121_netcdf24 (f : NetcdfAny.File) :
    (∀ i, netcdf24Open f = .ok (.opened i) ↔ NetcdfAny.openFile24 f = .ok (some i)) ∧
    (netcdf24Open f = .ok .refused ↔ f.isFile = false ∨ f.valid = false ∨ f.att "GribEditionNumber" = none) := by
  unfold netcdf24Open NetcdfAny.openFile24
  cases f.isFile with
  | false => simp
  | true =>
    cases f.valid with
    | false => simp
    | true =>
      cases f.att "GribEditionNumber" with
      | none => simp
      | some a =>
        cases NetcdfAny.init24 f with
        | ok r => cases r <;> simp
        | throws t => simp
        | ub => simp
        | terminate => simp
        | diverges => simp

/-- A NetCDF file of others, with neither of the two attributes, is opened as it is without meteosatlib, if its name is not one of xRIT and it does not
look like GRIB. -/
theorem C121_foreign {F I : Type} (stops : Bool) (content : F → NetcdfAny.File) (xrit grib : F → Outcome (Answer (Opened I)))
    (own : List (Driver F (Opened I))) (f : F) (h1 : xrit f = .ok .refused) (h2 : (content f).att "Satellite" = none)
    (h3 : (content f).att "GribEditionNumber" = none) (h4 : grib f = .ok .refused) :
    openWith stops (ours (msatOpens content xrit grib) ++ own) f = openWith stops own f := by
  refine C121_others stops _ own f h1 ?_ ?_ h4
  · show Outcome.ok ((netcdfOpen (content f)).map _) = _
    rw [(C121_netcdf (content f)).2.2 (Or.inr (Or.inr h2))]
    rfl
  · show Outcome.bind (netcdf24Open (content f)) _ = _
    rw [(C121_netcdf24 (content f)).2.2 (Or.inr (Or.inr h3))]
    rfl

/-- A file that is opened as NetCDF is opened so whatever else is in it, and whatever other drivers there are: also if it has what NetCDF-24 needs. -/
theorem C121_image {F I : Type} (stops : Bool) (content : F → NetcdfAny.File) (xrit grib : F → Outcome (Answer (Opened I)))
    (own : List (Driver F (Opened I))) (f : F) (d : NetcdfAny.Image) (h1 : xrit f = .ok .refused) (ha : NetcdfAnySpec.Accepts (content f))
    (hd : NetcdfAnySpec.Describes (content f) d) : openWith stops (ours (msatOpens content xrit grib) ++ own) f = .ok (some (.netcdf d)) := by
  refine C121_ours stops _ own f _ ⟨⟨"MsatNetCDF", _⟩, [⟨"MsatXRIT", _⟩], _, rfl, ?_, ?_⟩
  · intro e he
    rw [List.mem_singleton] at he
    rw [he]; exact Or.inl h1
  · show Outcome.ok ((netcdfOpen (content f)).map _) = _
    rw [((C121_netcdf (content f)).1 d).2 ((C116_image (content f) d).2 ⟨ha, hd⟩)]
    rfl

/-- A file that is opened as NetCDF-24, and has no satellite by name, is opened so whatever other drivers there are. -/
theorem C121_image24 {F I : Type} (stops : Bool) (content : F → NetcdfAny.File) (xrit grib : F → Outcome (Answer (Opened I)))
    (own : List (Driver F (Opened I))) (f : F) (d : NetcdfAny.Image) (g : NetcdfAny.Geo) (h1 : xrit f = .ok .refused)
    (hs : (content f).att "Satellite" = none) (ha : NetcdfAnySpec.Accepts24 (content f)) (hd : NetcdfAnySpec.Describes24 (content f) d g) :
    openWith stops (ours (msatOpens content xrit grib) ++ own) f = .ok (some (.netcdf24 d g)) := by
  refine C121_ours stops _ own f _ ⟨⟨"MsatNetCDF24", _⟩, [⟨"MsatXRIT", _⟩, ⟨"MsatNetCDF", _⟩], _, rfl, ?_, ?_⟩
  · intro e he
    simp only [List.mem_cons, List.not_mem_nil, or_false] at he
    rcases he with rfl | rfl
    · exact Or.inl h1
    · left
      show Outcome.ok ((netcdfOpen (content f)).map _) = _
      rw [(C121_netcdf (content f)).2.2 (Or.inr (Or.inr hs))]
      rfl
  · show Outcome.bind (netcdf24Open (content f)) _ = _
    rw [((C121_netcdf24 (content f)).1 (d, g)).2 ((C116_image24 (content f) d g).2 ⟨ha, hd⟩)]
    rfl

/-! ### What is not so -/

/-- Discrepancy: a NetCDF file of others that GDAL can open is not opened any more, once meteosatlib is there, if it has a `Satellite` and a `SampleX`
that is not 1: the driver of meteosatlib says that it is a failure, and with versions of GDAL where failures end the search no other driver is
tried.  With the others it is opened if the other drivers of meteosatlib leave it. -/
theorem C121_violated_failure {F I : Type} (content : F → NetcdfAny.File) (xrit grib : F → Outcome (Answer (Opened I)))
    (own : List (Driver F (Opened I))) (f : F) (x : NetcdfAny.Att) (h1 : xrit f = .ok .refused) (hf : (content f).isFile = true)
    (hv : (content f).valid = true) (hs : (content f).att "Satellite" ≠ none) (hx : (content f).att "SampleX" = some x) (hne : x.asFloat ≠ 1) :
    openWith true (ours (msatOpens content xrit grib) ++ own) f = .ok none ∧
    ((content f).att "GribEditionNumber" = none → grib f = .ok .refused →
      openWith false (ours (msatOpens content xrit grib) ++ own) f = openWith false own f) := by
  have hn : netcdfOpen (content f) = .failed := by
    unfold netcdfOpen NetcdfAny.init NetcdfAny.getAttr
    cases hs' : (content f).att "Satellite" with
    | none => exact absurd hs' hs
    | some a => simp [hf, hv, hx, hne]
  have e2 : (msatOpens content xrit grib).netcdf f = .ok .failed := by
    show Outcome.ok ((netcdfOpen (content f)).map _) = _
    rw [hn]; rfl
  constructor
  · have e : ours (msatOpens content xrit grib) ++ own = [⟨"MsatXRIT", xrit⟩] ++ ⟨"MsatNetCDF", (msatOpens content xrit grib).netcdf⟩ :: (⟨"MsatNetCDF24", (msatOpens content xrit grib).netcdf24⟩ ::
        ⟨"MsatGRIB", grib⟩ :: own) := rfl
    rw [e, openWith_passes true _ _ f (by intro d hd; rw [List.mem_singleton] at hd; rw [hd]; exact Or.inl h1)]
    rw [openWith]
    dsimp only
    rw [e2]; rfl
  · intro h3 h4
    apply openWith_passes
    intro e he
    simp only [ours, List.mem_cons, List.not_mem_nil, or_false] at he
    rcases he with rfl | rfl | rfl | rfl
    · exact Or.inl h1
    · exact Or.inr ⟨rfl, e2⟩
    · left
      show Outcome.bind (netcdf24Open (content f)) _ = _
      rw [(C121_netcdf24 (content f)).2.2 (Or.inr (Or.inr h3))]
      rfl
    · exact Or.inl h4

/-- Discrepancy: a NetCDF file of others with an edition number and a level type but no variable `Projection` is undefined behaviour for any program
that opens it with GDAL, once meteosatlib is there. -/
theorem C121_violated_crash {F I : Type} (stops : Bool) (content : F → NetcdfAny.File) (xrit grib : F → Outcome (Answer (Opened I)))
    (own : List (Driver F (Opened I))) (f : F) (h1 : xrit f = .ok .refused) (hs : (content f).att "Satellite" = none)
    (ha : NetcdfAnySpec.Accepts24 (content f)) (hp : ∀ v ∈ (content f).vars, v.name ≠ "Projection") :
    openWith stops (ours (msatOpens content xrit grib) ++ own) f = .ub := by
  have hu : netcdf24Open (content f) = .ub := by
    have h := C116_violated_projection (content f) ha hp
    have hi := open24_of_accepts ha
    rw [h] at hi
    obtain ⟨h3, h4, ⟨a, h5, -⟩, -⟩ := ha
    unfold netcdf24Open
    rw [← hi]
    simp [h3, h4, h5]
  have e : ours (msatOpens content xrit grib) ++ own = [⟨"MsatXRIT", xrit⟩, ⟨"MsatNetCDF", (msatOpens content xrit grib).netcdf⟩] ++
      ⟨"MsatNetCDF24", (msatOpens content xrit grib).netcdf24⟩ :: (⟨"MsatGRIB", grib⟩ :: own) := rfl
  rw [e, openWith_passes stops]
  · show Outcome.bind (Outcome.bind (netcdf24Open (content f)) _) _ = _
    rw [hu]
    rfl
  · intro d hd
    simp only [List.mem_cons, List.not_mem_nil, or_false] at hd
    rcases hd with rfl | rfl
    · exact Or.inl h1
    · left
      show Outcome.ok ((netcdfOpen (content f)).map _) = _
      rw [(C121_netcdf (content f)).2.2 (Or.inr (Or.inr hs))]
      rfl

/-- Discrepancy: a plugin that is loaded when GDAL has registered its drivers comes after them: files that both can open are opened without what
meteosatlib knows of them. -/
theorem C121_violated_after {F I : Type} (stops : Bool) (o : Opens F I) (own : List (Driver F I)) (h : OwnDrivers own) (f : F) (i : I)
    (hi : openWith stops own f = .ok (some i)) : openWith stops (registerMsat true o own) f = .ok (some i) := by
  rw [registerMsat_new o own (by rintro n hn ⟨d, hd, e⟩; exact h.2 d hd n hn e)]
  obtain ⟨d, l, r, hm, hl, hd⟩ := (C121_search stops own f i).1 hi
  exact (C121_search stops _ f i).2 ⟨d, l, r ++ ours o, by rw [hm]; simp, hl, hd⟩

/-- Discrepancy: when the library is preloaded in a program with no other `GDALAllRegister`, calling it calls the null pointer. -/
theorem C121_violated_null {F I : Type} (check : Bool) (o : Opens F I) (m : List (Driver F I)) : allRegister check o none m = .ub := rfl

/-- Discrepancy: with another version of GDAL none of the drivers is there, and `GDALAllRegister` returns as if all was well. -/
theorem C121_violated_version {F I : Type} (o : Opens F I) (ds : List (Driver F I)) (h : OwnDrivers ds) :
    allRegister false o (some (ds.map .own)) [] = .ok ds := by
  rw [allRegister_ok]
  have key : ∀ (l r : List (Driver F I)), Distinct (l ++ r) → gdalAllRegister false o (r.map .own) l = l ++ r := by
    intro l r
    induction r generalizing l with
    | nil => intro _; simp [gdalAllRegister]
    | cons d r ih =>
      intro hd
      have hn : ¬ Has l d.name := by
        rintro ⟨e, he, k⟩
        unfold Distinct at hd
        rw [List.pairwise_append] at hd
        exact hd.2.2 e he d (by simp) k
      show gdalAllRegister false o (r.map .own) (step false o l (.own d)) = _
      rcases own_cases false o d l with ⟨-, k⟩ | ⟨k, -⟩
      · exact absurd k hn
      · rw [k, ih (l ++ [d]) (by simpa using hd)]
        simp
  exact (key [] ds h.1).symm

/-! ### Examples -/

/-- Drivers of GDAL: one for everything, and one for nothing. -/
def tiff : Driver NetcdfAny.File (Opened Nat) := ⟨"GTiff", fun _ => .ok .refused⟩
def anyNetcdf : Driver NetcdfAny.File (Opened Nat) := ⟨"netCDF", fun _ => .ok (.opened (.other 7))⟩

theorem two_own : OwnDrivers [tiff, anyNetcdf] := by
  refine ⟨?_, ?_⟩
  · unfold Distinct
    refine List.pairwise_pair.2 ?_
    decide +kernel
  · intro d hd n hn
    have : ∀ x ∈ ["GTiff", "netCDF"], ∀ n ∈ ourNames, fold x ≠ fold n := by decide +kernel
    simp only [List.mem_cons, List.not_mem_nil, or_false] at hd
    rcases hd with rfl | rfl
    · exact this "GTiff" (by simp) n hn
    · exact this "netCDF" (by simp) n hn

/-- The library preloaded, with the plugin loaded as well. -/
example (o : Opens NetcdfAny.File (Opened Nat)) : allRegister true o (some [.own tiff, .plugin, .own anyNetcdf]) [] = .ok (ours o ++ [tiff, anyNetcdf]) :=
  C121_first o _ _ rfl two_own

/-- A program that registers everything twice: six drivers, with the four of meteosatlib. -/
example (o : Opens NetcdfAny.File (Opened Nat)) : ∃ r, Calls true o [.own tiff, .all [.own tiff, .plugin, .own anyNetcdf], .plugin] [] r ∧ Distinct r ∧
    r.head? = some tiff ∧ ∀ n ∈ ourNames, ∃ d, byName r n = some d := by
  have h : Calls true o [.own tiff, .all [.own tiff, .plugin, .own anyNetcdf], .plugin] [] _ :=
    .own tiff (.all _ ((allRegister_ok ..).2 rfl) (.plugin (.nil _)))
  refine ⟨_, h, (C121_once h List.Pairwise.nil).1, ?_, C121_there (before := [.own tiff]) (Or.inr ⟨_, rfl⟩) h⟩
  cases h with
  | own _ h =>
    obtain ⟨l, e⟩ := (calls_grow h).1
    rw [e]
    rcases own_cases true o tiff ([] : List (Driver NetcdfAny.File (Opened Nat))) with ⟨-, d, hd, -⟩ | ⟨k, -⟩
    · cases hd
    · rw [k]; rfl

/-- A NetCDF file of others. -/
def plainFile : NetcdfAny.File := ⟨true, true, fun _ => none, []⟩

example (stops : Bool) : openWith stops (ours (msatOpens id (fun _ => .ok .refused) (fun _ => .ok .refused)) ++ [tiff, anyNetcdf]) plainFile =
    .ok (some (.other 7)) := by
  rw [C121_foreign stops id _ _ [tiff, anyNetcdf] plainFile rfl rfl rfl rfl]
  rfl

/-- A file with two images is opened as NetCDF, though a driver of GDAL would open it too. -/
example (stops : Bool) : ∃ d, openWith stops (ours (msatOpens id (fun _ => .ok .refused) (fun _ => .ok .refused)) ++ [tiff, anyNetcdf]) twoSizes =
    .ok (some (.netcdf d)) := by
  have hr : NetcdfAny.openFile twoSizes ≠ none := by
    have hr : Datetime.netcdfReadTime (str "0000-00-00 00:00:00 UTC") ≠ none := by decide +kernel
    cases ht : Datetime.netcdfReadTime (str "0000-00-00 00:00:00 UTC") with
    | none => exact absurd ht hr
    | some t =>
      unfold NetcdfAny.openFile NetcdfAny.init
      have e : NetcdfAny.getAttr twoSizes.att NetcdfAny.Att.asString "Time" "0000-00-00 00:00:00 UTC" = "0000-00-00 00:00:00 UTC" := rfl
      rw [e, ht]
      intro h
      cases h
  cases h : NetcdfAny.openFile twoSizes with
  | none => exact absurd h hr
  | some d =>
    obtain ⟨ha, hd⟩ := (C116_image twoSizes d).1 h
    exact ⟨d, C121_image stops id _ _ [tiff, anyNetcdf] twoSizes d rfl ha hd⟩

/-- A file of others with sampled pixels. -/
def sampled : NetcdfAny.File :=
  ⟨true, true, fun k => if k = "Satellite" then some (textAtt "GOES-16") else if k = "SampleX" then some (intAtt 2) else none, []⟩

example : openWith true [tiff, anyNetcdf] sampled = .ok (some (.other 7)) ∧
    openWith true (ours (msatOpens id (fun _ => .ok .refused) (fun _ => .ok .refused)) ++ [tiff, anyNetcdf]) sampled = .ok none :=
  ⟨rfl, (C121_violated_failure id _ _ [tiff, anyNetcdf] sampled (intAtt 2) rfl rfl rfl (by decide +kernel) rfl (by decide +kernel)).1⟩

example (stops : Bool) : openWith stops [tiff, anyNetcdf] (edition1 []) = .ok (some (.other 7)) ∧
    openWith stops (ours (msatOpens id (fun _ => .ok .refused) (fun _ => .ok .refused)) ++ [tiff, anyNetcdf]) (edition1 []) = .ub :=
  ⟨rfl, C121_violated_crash stops id _ _ [tiff, anyNetcdf] (edition1 []) rfl rfl (edition1_accepted []) (fun v hv => by cases hv)⟩

example (o : Opens NetcdfAny.File (Opened Nat)) : openWith true (registerMsat true o [tiff, anyNetcdf]) twoSizes = .ok (some (.other 7)) :=
  C121_violated_after true o _ two_own twoSizes _ rfl

end Msat.Props
