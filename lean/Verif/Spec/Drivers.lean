import Mathlib.Data.List.Forall2
import Verif.Model.Drivers
import Verif.Spec.NetcdfAny

/-
What users of GDAL with the drivers of meteosatlib rely on.
-/
namespace Msat.DriversSpec
open Msat Drivers

/-- Two names that differ at most by the case of their letters. -/
def SameName (a b : String) : Prop := List.Forall₂ (fun x y => Char.toLower x = Char.toLower y) a.toList b.toList

/-- No two drivers have the same name, whatever the case. -/
def Distinct {F I : Type} (m : List (Driver F I)) : Prop := m.Pairwise fun a b => fold a.name ≠ fold b.name

/-- A driver with the name is in the list. -/
def Has {F I : Type} (m : List (Driver F I)) (name : String) : Prop := ∃ d ∈ m, fold d.name = fold name

/-- The drivers of meteosatlib, in the order in which they try to open files. -/
def ours {F I : Type} (o : Opens F I) : List (Driver F I) :=
  [⟨"MsatXRIT", o.xrit⟩, ⟨"MsatNetCDF", o.netcdf⟩, ⟨"MsatNetCDF24", o.netcdf24⟩, ⟨"MsatGRIB", o.grib⟩]

/-- The names of the drivers of meteosatlib. -/
def ourNames : List String := ["MsatXRIT", "MsatNetCDF", "MsatNetCDF24", "MsatGRIB"]

/-- A driver whose name is none of them. -/
def Foreign {F I : Type} (d : Driver F I) : Prop := ∀ n ∈ ourNames, fold d.name ≠ fold n

/-- What GDAL registers of its own: drivers of others, with names that are all different. -/
def OwnDrivers {F I : Type} (ds : List (Driver F I)) : Prop := Distinct ds ∧ ∀ d ∈ ds, Foreign d

/-- A program calls these functions, in any order and any number of times. -/
inductive Call (F I : Type) where
  /-- `GDALRegister_Meteosatlib`, of the plugin -/
  | plugin
  /-- `GDALAllRegister`, with the library preloaded -/
  | all (steps : List (Step F I))
  /-- registration of one driver of others -/
  | own (d : Driver F I)

/-- What happens to the drivers. -/
inductive Calls {F I : Type} (check : Bool) (o : Opens F I) : List (Call F I) → List (Driver F I) → List (Driver F I) → Prop where
  | nil (m : List (Driver F I)) : Calls check o [] m m
  | plugin {cs : List (Call F I)} {m r : List (Driver F I)} (h : Calls check o cs (registerMsat check o m) r) : Calls check o (.plugin :: cs) m r
  | all {cs : List (Call F I)} {m n r : List (Driver F I)} (steps : List (Step F I)) (ha : allRegister check o (some steps) m = .ok n)
      (h : Calls check o cs n r) : Calls check o (.all steps :: cs) m r
  | own {cs : List (Call F I)} {m r : List (Driver F I)} (d : Driver F I) (h : Calls check o cs (step check o m (.own d)) r) :
      Calls check o (.own d :: cs) m r

/-- The driver leaves the file to the following ones. -/
def Passes {F I : Type} (stops : Bool) (f : F) (d : Driver F I) : Prop :=
  d.openFile f = .ok .refused ∨ (stops = false ∧ d.openFile f = .ok .failed)

/-- The driver is the first one that opens the file. -/
def OpenedBy {F I : Type} (stops : Bool) (m : List (Driver F I)) (f : F) (d : Driver F I) (i : I) : Prop :=
  ∃ l r, m = l ++ d :: r ∧ (∀ e ∈ l, Passes stops f e) ∧ d.openFile f = .ok (.opened i)

end Msat.DriversSpec
