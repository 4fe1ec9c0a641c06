import Verif.Lemmas.RecordComplete
import Mathlib.Data.List.Perm.Basic

/-
Auxiliary facts: the same of the greatest records.
-/
namespace Msat.RecordTexts
open Msat Layout RecordTextsSpec

theorem array_filter {n : Nat} {nm : String} {f : Nat → Text} {l : Lay} {keep : Path → Bool}
    (h : ∀ i, i < n → displayed (f i) = ((leaves l).map ([.f nm, .i i] ++ ·)).filter keep) :
    displayed (each n f) = ((leaves (.arr n l)).map ([.f nm] ++ ·)).filter keep := by
  rw [displayed_each, leaves_arr, List.map_flatMap, List.filter_flatMap]
  refine List.flatMap_congr fun i hi => ?_
  rw [h i (List.mem_range.1 hi), List.map_map]
  rfl

theorem array_all {n : Nat} {nm : String} {f : Nat → Text} {l : Lay} (h : ∀ i, i < n → displayed (f i) = (leaves l).map ([.f nm, .i i] ++ ·)) :
    displayed (each n f) = (leaves (.arr n l)).map ([.f nm] ++ ·) := by
  rw [displayed_each, leaves_arr, List.map_flatMap]
  refine List.flatMap_congr fun i hi => ?_
  rw [h i (List.mem_range.1 hi), List.map_map]
  rfl

theorem geometricProc_shows : displayed geometricProcText = leaves geometricProcLay := by
  unfold geometricProcText geometricProcLay
  rw [leaves_struct_cons, leaves_struct_cons, leaves_struct_cons, leaves_struct_cons, leaves_struct_nil, List.append_nil,
    ← List.append_assoc, ← List.append_assoc]
  rw [displayed_append, displayed_append]
  refine congrArg₂ _ (congrArg₂ _ ?_ (array_all ?_)) ?_
  · decide +kernel
  · decide +kernel
  · decide +kernel

theorem iMPFConfiguration_shows : displayed iMPFConfigurationText = leaves iMPFConfigurationLay := by decide +kernel

theorem l10RadQuality_shows : displayed l10RadQualityText = leaves l10RadQualityLay := by decide +kernel

theorem l15RadQuality_shows : displayed l15RadQualityText = leaves l15RadQualityLay := by decide +kernel

theorem radiometricProc_shows : displayed radiometricProcText = (leaves radiometricProcLay).filter fun p => !neverShown p := by
  unfold radiometricProcText radiometricProcLay
  rw [leaves_struct_cons, leaves_struct_cons, leaves_struct_cons, leaves_struct_cons, leaves_struct_cons, leaves_struct_cons, leaves_struct_cons,
    leaves_struct_nil, List.append_nil]
  rw [← List.append_assoc, ← List.append_assoc, ← List.append_assoc, ← List.append_assoc, ← List.append_assoc]
  rw [List.filter_append, List.filter_append, List.filter_append]
  rw [displayed_append, displayed_append, displayed_append]
  refine congrArg₂ _ (congrArg₂ _ (congrArg₂ _ ?_ (array_filter ?_)) ?_) (array_filter ?_)
  · decide +kernel
  · decide +kernel
  · decide +kernel
  · decide +kernel

theorem radiometricQuality_shows : Shows radiometricQualityText radiometricQualityLay := by
  unfold Shows radiometricQualityText radiometricQualityLay
  rw [leaves_struct_cons, leaves_struct_cons, leaves_struct_nil, List.append_nil]
  rw [displayed_append, displayed_append]
  rw [show displayed [lit "------------------------------------------------------", endl, lit "-         MSG IMAGE RADIOMETRIC QUALITY RECORD       -", endl,
    lit "------------------------------------------------------", endl] = [] by decide, List.nil_append]
  exact List.Perm.append (shows_array "L10RadQuality" _ (fun i => rfl) (shows_of_eq l10RadQuality_shows))
    (shows_array "L15RadQuality" _ (fun i => rfl) (shows_of_eq l15RadQuality_shows))

theorem six_perm {α β : Type} (l : List α) (a b c d e f : α → List β) :
    (l.flatMap fun x => a x ++ (b x ++ (c x ++ (d x ++ (e x ++ f x))))).Perm
      (l.flatMap a ++ (l.flatMap b ++ (l.flatMap c ++ (l.flatMap d ++ (l.flatMap e ++ l.flatMap f))))) := by
  refine (List.flatMap_append_perm l a _).symm.trans (List.Perm.append_left _ ?_)
  refine (List.flatMap_append_perm l b _).symm.trans (List.Perm.append_left _ ?_)
  refine (List.flatMap_append_perm l c _).symm.trans (List.Perm.append_left _ ?_)
  refine (List.flatMap_append_perm l d _).symm.trans (List.Perm.append_left _ ?_)
  exact (List.flatMap_append_perm l e _).symm

theorem member_array (nm : String) (n : Nat) (l : Lay) :
    (leaves (.arr n l)).map ([.f nm] ++ ·) = (List.range n).flatMap fun i => (leaves l).map ([.f nm, .i i] ++ ·) := by
  rw [leaves_arr, List.map_flatMap]
  refine List.flatMap_congr fun i _ => ?_
  rw [List.map_map]
  rfl

theorem geometricQuality_shows : Shows geometricQualityText geometricQualityLay := by
  unfold Shows geometricQualityText geometricQualityLay
  rw [leaves_struct_cons, leaves_struct_cons, leaves_struct_cons, leaves_struct_cons, leaves_struct_cons, leaves_struct_cons, leaves_struct_nil,
    List.append_nil, member_array, member_array, member_array, member_array, member_array, member_array]
  refine List.Perm.trans ?_ (six_perm (List.range 12) _ _ _ _ _ _)
  rw [displayed_append, show displayed [lit "------------------------------------------------------", endl,
    lit "-         MSG IMAGE GEOMETRIC QUALITY RESULTS        -", endl, lit "------------------------------------------------------", endl] = [] by decide,
    List.nil_append]
  refine shows_each fun i hi => ?_
  have : ∀ i, i < 12 → displayed (
      [lit "Channel ", index 2 i, endl, lit "ABSOLUTE ACCURACY", endl] ++
      sub [.f "AbsoluteAccuracy", .i i] accuracyText ++
      [lit "RELATIVE ACCURACY", endl] ++
      sub [.f "RelativeAccuracy", .i i] accuracyText ++
      [lit "N 500 PIXELS ACCURACY", endl] ++
      sub [.f "N500PixelsRelativeAccuracy", .i i] accuracyText ++
      [lit "N 16 PIXELS ACCURACY", endl] ++
      sub [.f "N16PixelsRelativeAccuracy", .i i] accuracyText ++
      [lit "MISREGISTRATION RESIDUALS", endl] ++
      sub [.f "MisregistrationResiduals", .i i] residualsText ++
      [lit "GEOMETRIC QUALITY", endl] ++
      sub [.f "GeometricQualityStatus", .i i] geometricQualityStatusText) =
      (leaves accuracyLay).map ([.f "AbsoluteAccuracy", .i i] ++ ·) ++ ((leaves accuracyLay).map ([.f "RelativeAccuracy", .i i] ++ ·) ++
      ((leaves accuracyLay).map ([.f "N500PixelsRelativeAccuracy", .i i] ++ ·) ++
      ((leaves accuracyLay).map ([.f "N16PixelsRelativeAccuracy", .i i] ++ ·) ++
      ((leaves residualsLay).map ([.f "MisregistrationResiduals", .i i] ++ ·) ++
      (leaves geometricQualityStatusLay).map ([.f "GeometricQualityStatus", .i i] ++ ·))))) := by
    decide +kernel
  rw [this i hi]

end Msat.RecordTexts
