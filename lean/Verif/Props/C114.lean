import Mathlib.Data.Fintype.EquivFin
import Mathlib.Data.Set.Finite.List
import Verif.Lemmas.MsatView

/-
C114 What msat shows of an image.
-/
namespace Msat.Props
open Msat Text MsatView MsatViewSpec

/-- All the lines that are shown, of an image whose texts are on one line each. -/
theorem view_lines {fmt : Rat → Bytes} (hf : PlainNumbers fmt) {c : Bool} {d : Image} (hp : Plain d) {ls : List Bytes}
    (h : printDataset fmt c d = .ok ls) : ∀ l ∈ ls, OneLine l := by
  unfold printDataset at h
  split at h
  · cases h
  · injection h with h
    subst h
    obtain ⟨h1, h2, h3, h4⟩ := hp
    have hw : ∀ x y z, OneLine (gtLine fmt x y z) := by
      have hw : ∀ x, OneLine (wide (fmt x)) := fun x => wide_no (oneLine_fmt hf x) (by decide)
      intro x y z
      have hc : OneLine (str ",\t") := show (10 : UInt8) ∉ str ",\t" by decide
      exact oneLine_append (oneLine_append (oneLine_append (oneLine_append (oneLine_append (show (10 : UInt8) ∉ str "  " by decide) (hw x)) hc) (hw y)) hc) (hw z)
    intro l hl
    rcases List.mem_append.1 hl with hl | hl
    · rcases List.mem_append.1 hl with hl | hl
      · simp only [List.mem_cons, List.not_mem_nil, or_false] at hl
        rcases hl with rfl | rfl | rfl | rfl | rfl | rfl
        rotate_right 2
        · exact hw _ _ _
        · exact hw _ _ _
        all_goals
          repeat' apply oneLine_append
          all_goals first
            | exact oneLine_decimal _
            | exact h1
            | exact h2
            | exact show (10 : UInt8) ∉ _ by decide
      · exact dump_oneLine (show (10 : UInt8) ∉ [] by simp) h3 l hl
    · exact bands_oneLine hf _ _ h4 l hl

/-- What is shown says everything of an image: its name, size, projection and geotransform, its metadata, and for each of its bands the name, size,
type, offset, scale, unit, metadata and, if they are known, the statistics.  Two images for which the same is shown are the same, but for the
digits of numbers that are not shown. -/
theorem C114_complete (fmt : Rat → Bytes) (hf : PlainNumbers fmt) (c : Bool) (a b : Image) (ha : Plain a) (hb : Plain b) (s : Bytes)
    (h : view fmt c a = .ok s) (h' : view fmt c b = .ok s) : SameImage fmt c a b := by
  obtain ⟨la, hla, h⟩ := Outcome.of_bind_ok h
  obtain ⟨lb, hlb, h'⟩ := Outcome.of_bind_ok h'
  have e : la = lb := by
    apply lines_inj (view_lines hf ha hla) (view_lines hf hb hlb)
    injection h with h
    injection h' with h'
    exact h.trans h'.symm
  subst e
  obtain ⟨an, ax, ay, ap, ag, am, ab⟩ := a
  obtain ⟨bn, bx, by', bp, bg, bm, bb⟩ := b
  unfold printDataset at hla hlb
  cases ag with
  | none => cases hla
  | some g =>
  cases bg with
  | none => cases hlb
  | some g' =>
  obtain ⟨g0, g1, g2, g3, g4, g5⟩ := g
  obtain ⟨k0, k1, k2, k3, k4, k5⟩ := g'
  simp only at hla hlb
  injection hla with hla
  injection hlb with hlb
  have e := hla.trans hlb.symm
  simp only [List.append_assoc, List.cons_append, List.nil_append, List.cons.injEq, List.append_cancel_left_eq, true_and] at e
  obtain ⟨e1, e2, e3, e4, e5, e⟩ := e
  obtain ⟨e6, e7⟩ := split_kind IsTitle dump_not_title dump_not_title bands_head bands_head e
  obtain ⟨f0, f1, f2⟩ := gtLine_inj hf e4
  obtain ⟨f3, f4, f5⟩ := gtLine_inj hf e5
  exact ⟨e1, size_inj (by simpa using e2), e3, by simp only [Option.map_some, f0, f1, f2, f3, f4, f5], dump_inj e6, bands_inj hf _ _ 1 e7⟩

/-- The titles of the bands are in order, each with its number, how many there are, and its name: there is one for each band, and no other line
begins like them. -/
theorem C114_titles (fmt : Rat → Bytes) (c : Bool) (d : Image) (ls : List Bytes) (h : printDataset fmt c d = .ok ls) :
    ls.filter (fun l => l.head? = some 82) =
      d.bands.mapIdx fun i b => str "Raster band " ++ decimal (i + 1) ++ str "/" ++ decimal d.bands.length ++ str ": " ++ b.description := by
  have bands : ∀ (n : Nat) (bs : List Band) (i : Nat), (printBands fmt c n i bs).filter (fun l => l.head? = some 82) =
      bs.mapIdx fun k b => str "Raster band " ++ decimal (i + k) ++ str "/" ++ decimal n ++ str ": " ++ b.description := by
    intro n bs
    induction bs with
    | nil => intro i; rfl
    | cons b bs ih =>
      intro i
      have h1 : (printRasterBand fmt c (str "  ") b).filter (fun l => l.head? = some 82) = [] := by
        rw [List.filter_eq_nil_iff]
        intro x hx
        obtain ⟨r, rfl⟩ := band_line x hx
        simp
      simp only [printBands, List.mapIdx_cons]
      rw [List.filter_cons_of_pos (by
        rw [show str "Raster band " = 82 :: str "aster band " by decide]
        simp), List.filter_append, h1, List.nil_append, ih (i + 1)]
      congr 1
      congr 1
      funext k b
      rw [show i + 1 + k = i + (k + 1) by omega]
  have md : (dumpMetadata [] d.md).filter (fun l => l.head? = some 82) = [] := by
    rw [List.filter_eq_nil_iff]
    intro x hx
    obtain ⟨k, r, rfl, hk⟩ := dump_line hx
    rcases hk with rfl | rfl <;> simp
  unfold printDataset at h
  split at h
  · cases h
  · injection h with h
    subst h
    rw [List.filter_append, List.filter_append, md, bands, List.append_nil]
    have : ∀ l : List Bytes, (∀ x ∈ l, x.head? ≠ some (82 : UInt8)) → l.filter (fun l => l.head? = some 82) = [] := by
      intro l hl
      rw [List.filter_eq_nil_iff]
      intro x hx
      simpa using hl x hx
    rw [this, List.nil_append]
    · congr 1
      funext k b
      rw [Nat.add_comm 1 k]
    · intro x hx
      unfold gtLine at hx
      simp only [List.mem_cons, List.not_mem_nil, or_false] at hx
      rcases hx with rfl | rfl | rfl | rfl | rfl | rfl
      · rw [show str "Dataset: " = 68 :: str "ataset: " by decide]; simp
      · rw [show str "Size: " = 83 :: str "ize: " by decide]; simp
      · rw [show str "Projection: " = 80 :: str "rojection: " by decide]; simp
      · decide
      · rw [show str "  " = 32 :: str " " by decide]; simp
      · rw [show str "  " = 32 :: str " " by decide]; simp

/-- Every item of the metadata of the image in the known domains is shown, after the title of its domain; among them are the time and the
satellite, that are in the default one. -/
theorem C114_metadata (fmt : Rat → Bytes) (c : Bool) (d : Image) (ls : List Bytes) (h : printDataset fmt c d = .ok ls) (k : String) (hk : k ∈ known)
    (items : List Bytes) (hi : d.md k = some items) :
    ∃ pre post, ls = pre ++ (if k = "" then str "Metadata:" else str "Metadata (" ++ str k ++ str "):") :: items.map (str "  " ++ ·) ++ post := by
  have key : ∃ pre post, dumpMetadata [] d.md = pre ++ section' [] (if k = "" then str "Metadata:" else str "Metadata (" ++ str k ++ str "):") (d.md k) ++ post := by
    unfold dumpMetadata
    simp only [known, List.mem_cons, List.not_mem_nil, or_false] at hk
    by_cases h0 : k = ""
    · subst h0
      exact ⟨[], _, rfl⟩
    · rw [if_neg h0]
      have hm : k ∈ domains := by
        rcases hk with rfl | rfl | rfl | rfl
        · exact absurd rfl h0
        all_goals decide
      obtain ⟨u, v, e⟩ := List.append_of_mem hm
      rw [e]
      exact ⟨section' [] (str "Metadata:") (d.md "") ++ u.flatMap fun d' => section' [] (str "Metadata (" ++ str d' ++ str "):") (d.md d'),
        v.flatMap fun d' => section' [] (str "Metadata (" ++ str d' ++ str "):") (d.md d'), by
          simp only [List.flatMap_append, List.flatMap_cons, List.append_assoc]⟩
  obtain ⟨pre, post, e⟩ := key
  unfold printDataset at h
  split at h
  · cases h
  · injection h with h
    subst h
    rw [e, hi]
    rw [← List.append_assoc, ← List.append_assoc, List.append_assoc]
    exact ⟨_, post ++ printBands fmt c d.bands.length 1 d.bands, rfl⟩

/-- A small image. -/
def smallImage (item : String) : Image :=
  ⟨str "a.grb", 3, 2, [], some (0, 1, 0, 0, 0, 1), fun d => if d = "" then some [str item] else none,
    [⟨str "IR_108", 3, 2, 7, 0, 1, str "K", fun _ => none, fun more => if more then some (1, 6, 7 / 2, 2) else none⟩]⟩

/-- Numbers in some notation. -/
def someNotation (x : Rat) : Bytes := if x.num < 0 then 45 :: decimal x.num.natAbs else decimal x.num.natAbs

theorem someNotation_plain : PlainNumbers someNotation := by
  intro x
  have hd := RecordTexts.decimal_chars x.num.natAbs
  have hc : ∀ c, Text.isDigit c = true → c ≠ 10 ∧ c ≠ 32 ∧ c ≠ 44 := by
    intro c h
    refine ⟨?_, ?_, ?_⟩ <;> (rintro rfl; exact absurd h (by decide))
  unfold someNotation
  split
  · refine ⟨by simp, fun c h => ?_⟩
    rcases List.mem_cons.1 h with rfl | h
    · decide
    · exact hc c (hd.2 c h)
  · exact ⟨hd.1, fun c h => hc c (hd.2 c h)⟩

theorem smallImage_plain (item : String) (h : OneLine (str item)) : Plain (smallImage item) := by
  refine ⟨show (10 : UInt8) ∉ str "a.grb" by decide, show (10 : UInt8) ∉ [] by decide, fun d _ l hl t ht => ?_, fun b hb => ?_⟩
  · simp only [smallImage] at hl
    split at hl
    · injection hl with hl
      subst hl
      rw [List.mem_singleton.1 ht]
      exact h
    · cases hl
  · simp only [smallImage, List.mem_singleton] at hb
    subst hb
    exact ⟨show (10 : UInt8) ∉ _ by decide, show (10 : UInt8) ∉ _ by decide, fun d _ l hl => by cases hl⟩

/-- Images that are shown, at another time and with the pixels. -/
example : PlainNumbers someNotation ∧ Plain (smallImage "MSAT_DATETIME=2007-06-05 04:45:00") ∧
    (∃ s, view someNotation true (smallImage "MSAT_DATETIME=2007-06-05 04:45:00") = .ok s) ∧
    ¬ SameImage someNotation true (smallImage "MSAT_DATETIME=2007-06-05 04:45:00") (smallImage "MSAT_DATETIME=2007-06-05 05:00:00") := by
  refine ⟨someNotation_plain, smallImage_plain _ (show (10 : UInt8) ∉ _ by decide), ⟨_, rfl⟩, fun h => ?_⟩
  have := h.md "" (by decide)
  simp only [smallImage, if_true] at this
  exact absurd this (by decide)

/-- Discrepancy: when an image has no geotransform, as a GRIB message without the keys of the grid, what is shown is six numbers that were never
given a value: what `GetGeoTransform` returns is not looked at. -/
theorem C114_violated_geotransform (fmt : Rat → Bytes) (c : Bool) (d : Image) (h : d.gt = none) : view fmt c d = .ub := by
  unfold view printDataset
  rw [h]
  rfl

/-- Discrepancy: numbers are shown with few digits (six with the default precision of C++ streams: no text has more than thirteen characters), so
images with different geotransforms, offsets or scales look the same: a user cannot tell them from what is shown. -/
theorem C114_violated_digits (fmt : Rat → Bytes) (hf : ∀ x, (fmt x).length ≤ 13) (c : Bool) (d : Image) (g1 g2 g3 g4 g5 : Rat) :
    ∃ x y : Rat, x ≠ y ∧ view fmt c { d with gt := some (x, g1, g2, g3, g4, g5) } = view fmt c { d with gt := some (y, g1, g2, g3, g4, g5) } := by
  have : Finite UInt8 := Finite.of_injective (fun c => c.toFin) (fun a b h => UInt8.toFin_inj.1 h)
  have fin : Finite {l : Bytes // l.length ≤ 13} := (List.finite_length_le UInt8 13).to_subtype
  obtain ⟨x, y, hxy, h⟩ := Finite.exists_ne_map_eq_of_infinite (fun x : Rat => (⟨fmt x, hf x⟩ : {l : Bytes // l.length ≤ 13}))
  refine ⟨x, y, hxy, ?_⟩
  have e : fmt x = fmt y := congrArg Subtype.val h
  unfold view printDataset gtLine
  simp only [e]

/-- A notation with few digits. -/
example : ∀ x : Rat, ((fun _ => str "1.23457e+06" : Rat → Bytes) x).length ≤ 13 := fun _ => show (str "1.23457e+06").length ≤ 13 by decide

/-- Without geotransform. -/
example : { smallImage "" with gt := none }.gt = none := rfl

end Msat.Props
