import Verif.Props.C83
import Verif.Props.C82
import Verif.Props.C13_C16
import Verif.Lemmas.Text

/-
C84 Images computed from another one are for the time of that one.
-/
namespace Msat.Props
open Msat Sources SourcesSpec XritOpen XritOpenSpec ToolSpec TextSpec

theorem decimal_append (s : List Char) (c : Char) : ToolSpec.decimal (s ++ [c]) = 10 * ToolSpec.decimal s + (c.toNat - 48) := by
  induction s with
  | nil => simp [ToolSpec.decimal]
  | cons a s ih =>
    show (a.toNat - '0'.toNat) * 10 ^ (s ++ [c]).length + ToolSpec.decimal (s ++ [c]) = 10 * ((a.toNat - '0'.toNat) * 10 ^ s.length + ToolSpec.decimal s) + _
    rw [ih, List.length_append, List.length_singleton, Nat.pow_succ]
    generalize (a.toNat - '0'.toNat) = x
    generalize 10 ^ s.length = y
    rw [Nat.mul_add, show x * (y * 10) = 10 * (x * y) by rw [← Nat.mul_assoc, Nat.mul_comm]]
    omega

theorem char_digit {c : Char} (h : '0' ≤ c ∧ c ≤ '9') : 48 ≤ c.toNat ∧ c.toNat ≤ 57 := by
  obtain ⟨h1, h2⟩ := h
  exact ⟨h1, h2⟩

theorem bytes_digits : ∀ (k : Nat) (s : List Char), s.length = k → (∀ c ∈ s, '0' ≤ c ∧ c ≤ '9') →
    bytes s = digits k (ToolSpec.decimal s) ∧ ToolSpec.decimal s < 10 ^ k
  | 0, s, hl, _ => by
    rw [List.length_eq_zero_iff.mp hl]
    exact ⟨rfl, by decide⟩
  | k + 1, s, hl, hd => by
    rcases List.eq_nil_or_concat s with rfl | ⟨t, c, rfl⟩
    · cases hl
    · rw [List.concat_eq_append] at *
      have hl : t.length = k := by simpa using hl
      obtain ⟨e, h⟩ := bytes_digits k t hl (fun x hx => hd x (List.mem_append_left _ hx))
      have hc := char_digit (hd c (List.mem_append_right _ (List.mem_singleton.mpr rfl)))
      rw [decimal_append]
      refine ⟨?_, by rw [Nat.pow_succ]; omega⟩
      show bytes (t ++ [c]) = digits k ((10 * ToolSpec.decimal t + (c.toNat - 48)) / 10) ++ [UInt8.ofNat (48 + (10 * ToolSpec.decimal t + (c.toNat - 48)) % 10)]
      rw [show (10 * ToolSpec.decimal t + (c.toNat - 48)) / 10 = ToolSpec.decimal t by omega,
        show 48 + (10 * ToolSpec.decimal t + (c.toNat - 48)) % 10 = c.toNat by omega, ← e]
      exact List.map_append ..

theorem scanf_date (d : Date) (hv : d.Valid) :
    Text.scanf timeFormat (bytes d.text) = [(ToolSpec.decimal d.year : Int), ToolSpec.decimal d.month, ToolSpec.decimal d.day,
      ToolSpec.decimal d.hour, ToolSpec.decimal d.minute, ToolSpec.decimal d.second] := by
  obtain ⟨⟨l1, l2, l3, l4, l5, l6⟩, hc⟩ := hv
  obtain ⟨e1, b1⟩ := bytes_digits 4 d.year l1 (fun c h => hc c (.inl h))
  obtain ⟨e2, b2⟩ := bytes_digits 2 d.month l2 (fun c h => hc c (.inr (.inl h)))
  obtain ⟨e3, b3⟩ := bytes_digits 2 d.day l3 (fun c h => hc c (.inr (.inr (.inl h))))
  obtain ⟨e4, b4⟩ := bytes_digits 2 d.hour l4 (fun c h => hc c (.inr (.inr (.inr (.inl h)))))
  obtain ⟨e5, b5⟩ := bytes_digits 2 d.minute l5 (fun c h => hc c (.inr (.inr (.inr (.inr (.inl h))))))
  obtain ⟨e6, b6⟩ := bytes_digits 2 d.second l6 (fun c h => hc c (.inr (.inr (.inr (.inr (.inr h))))))
  have happ : ∀ a b : List Char, bytes (a ++ b) = bytes a ++ bytes b := fun a b => List.map_append ..
  have ht : bytes d.text = digits 4 (ToolSpec.decimal d.year) ++ ([45] ++ (digits 2 (ToolSpec.decimal d.month) ++ ([45] ++
      (digits 2 (ToolSpec.decimal d.day) ++ ([32] ++ (digits 2 (ToolSpec.decimal d.hour) ++ ([58] ++
      (digits 2 (ToolSpec.decimal d.minute) ++ ([58] ++ (digits 2 (ToolSpec.decimal d.second) ++ [])))))))))) := by
    unfold Date.text
    simp only [happ, e1, e2, e3, e4, e5, e6, List.append_assoc, List.append_nil]
    rfl
  rw [ht]
  unfold timeFormat
  rw [Text.scanf_int _ _ 4 _ _ (by omega) b1 (.inr rfl), Text.scanf_lit, Text.scanf_int _ _ 2 _ _ (by omega) b2 (.inr rfl), Text.scanf_lit,
    Text.scanf_int _ _ 2 _ _ (by omega) b3 (.inr rfl), Text.scanf_blank _ 32 _ rfl (Text.dropWhile_digits 2 _ (by omega) _),
    Text.scanf_int _ _ 2 _ _ (by omega) b4 (.inr rfl), Text.scanf_lit, Text.scanf_int _ _ 2 _ _ (by omega) b5 (.inr rfl), Text.scanf_lit,
    Text.scanf_int _ _ 2 _ _ (by omega) b6 (.inr rfl)]
  rfl

/-- The day of the year and the hour, with the minutes, that are used for an image with this date. -/
theorem C84_time (d : Date) (hv : d.Valid) (hm : 1 ≤ ToolSpec.decimal d.month ∧ ToolSpec.decimal d.month ≤ 12) :
    timeOf (bytes d.text) = .ok ((Spec.daysBeforeMonth (ToolSpec.decimal d.year) (ToolSpec.decimal d.month) : Int) + ToolSpec.decimal d.day,
      (ToolSpec.decimal d.hour : Rat) + (ToolSpec.decimal d.minute : Rat) / 60) := by
  unfold timeOf
  rw [scanf_date d hv]
  dsimp only
  rw [C15_day_number _ _ _ hm]
  rfl

/-- The day and the cosine of the zenith angle of the sun that are computed from an xRIT image are for the time when its acquisition began,
to the minute: day of the year and hour of the prologue. -/
theorem C84_xrit (hrv : Bool) (pro : XritDataset.Prologue) (hd : XritDataset.Header) (hr : Readable pro hd) (day msec : Nat)
    (h1 : day < 2 ^ 16) (h2 : msec < 2 ^ 32) (ht : pro.start = Time.cdsShortOf day msec) (y m d : Nat) (hy : 1958 ≤ y)
    (hv : Spec.ValidDate y m d)
    (hday : Spec.daysBetweenYears 1958 y + Spec.daysBeforeMonth y m + (d - 1) = day + msec / 86400000)
    (files : Files) (name : Bytes) (fa : Xrit.FileAccess) (hn : Named name fa) (ha : ¬ Asks fa.productid2) (ds : Dataset)
    (hf : files fa = .opens ds) (c : Common) (ch : Int) (hd' : IsImage c ch ds)
    (hsays : ∀ x, XritDataset.init hrv pro hd = .ok x → ds.datetime = some (bytes x.datetime)) (h : Heap) :
    (∃ p, (xritOpen files name (some (str "cos_sol_za")) h).2 = .ok (some (.cosSolZa p ((Spec.daysBeforeMonth y m : Int) + d)
      (((msec / 3600000 % 24 : Nat) : Rat) + ((msec / 60000 % 60 : Nat) : Rat) / 60)))) ∧
    ∃ p, (xritOpen files name (some (str "jday")) h).2 = .ok (some (.jday p ((Spec.daysBeforeMonth y m : Int) + d))) := by
  obtain ⟨x, D, ei, hD, hx, e1, e2, e3, e4, e5, e6⟩ := C82_date hrv pro hd hr day msec h1 h2 ht y m d hy hv hday
  have hs := hsays x ei
  rw [hx, hd'.1.2.2.1] at hs
  have hs : c.datetime = bytes D.text := Option.some.inj hs
  have htime := C84_time D hD ⟨by rw [e2]; exact hv.1, by rw [e2]; exact hv.2.1⟩
  rw [e1, e2, e3, e4, e5] at htime
  obtain ⟨_, ⟨p, t, o1, et, _⟩, ⟨q, t', o2, et', _⟩, _⟩ := C83_angles files name fa hn ha ds hf c ch hd' h
  rw [hs, htime] at et et'
  injection et with et
  injection et' with et'
  subst et et'
  exact ⟨⟨p, o1⟩, ⟨q, o2⟩⟩

example : (⟨"2014".toList, "10".toList, "24".toList, "12".toList, "00".toList, "00".toList⟩ : Date).Valid ∧
    timeOf (str "2014-10-24 12:30:00") = .ok (297, 25 / 2) := by
  refine ⟨⟨by decide, ?_⟩, by decide +kernel⟩
  intro c h
  have : c ∈ "20141024120000".toList := by
    simp at h ⊢
    tauto
  clear h
  revert c
  decide

/-- The image of `aPrologue` and `aSegment` is one of those. -/
example : ∃ ds c, IsImage c 9 ds ∧ ∀ x, XritDataset.init false aPrologue aSegment = .ok x → ds.datetime = some (bytes x.datetime) := by
  obtain ⟨x, D, ei, hD, hx, _⟩ := C82_date false aPrologue aSegment aReadable 20750 43211000 (by decide) (by decide) rfl 2014 10 24 (by decide)
    (by unfold Spec.ValidDate; decide) (by decide +kernel)
  refine ⟨⟨0, some 1, some 2, some (bytes D.text), some 3, 3712, 3712, [⟨some 9, true⟩]⟩, ⟨1, 2, bytes D.text, 3712, 3712⟩,
    ⟨⟨rfl, rfl, rfl, rfl, rfl, rfl⟩, rfl, by decide, by decide, ?_⟩, ?_⟩
  · dsimp only
    rw [scanf_date D hD]
    rfl
  · intro y hy
    rw [ei] at hy
    injection hy with hy
    rw [← hy, hx]

end Msat.Props
