import Verif.Lemmas.FileAccess

namespace Msat.Xrit
open StdString XritSpec

theorem globMatch_append (p q n : Bytes) :
    globMatch (p ++ q) n = true ↔ ∃ a b, n = a ++ b ∧ globMatch p a = true ∧ globMatch q b = true := by
  induction p generalizing n with
  | nil =>
    constructor
    · intro h; exact ⟨[], n, rfl, rfl, h⟩
    · rintro ⟨a, b, rfl, ha, hb⟩
      cases a with
      | nil => exact hb
      | cons x a => exact absurd ha (by simp [globMatch])
  | cons c p ih =>
    constructor
    · intro h
      cases n with
      | nil => exact absurd h (by simp [globMatch])
      | cons x n =>
        simp only [List.cons_append, globMatch, Bool.and_eq_true] at h
        obtain ⟨a, b, rfl, ha, hb⟩ := (ih n).1 h.2
        exact ⟨x :: a, b, rfl, by simp only [globMatch, Bool.and_eq_true]; exact ⟨h.1, ha⟩, hb⟩
    · rintro ⟨a, b, rfl, ha, hb⟩
      cases a with
      | nil => exact absurd ha (by simp [globMatch])
      | cons x a =>
        simp only [globMatch, Bool.and_eq_true, List.cons_append] at ha ⊢
        exact ⟨ha.1, (ih _).2 ⟨a, b, rfl, ha.2, hb⟩⟩

theorem globMatch_lit {p : Bytes} (h : quest ∉ p) (n : Bytes) : globMatch p n = true ↔ n = p := by
  induction p generalizing n with
  | nil => cases n <;> simp [globMatch]
  | cons c p ih =>
    have hc : ¬ c = quest := fun e => h (by simp [e])
    cases n with
    | nil => simp [globMatch]
    | cons x n =>
      simp only [globMatch, Bool.and_eq_true, Bool.or_eq_true, beq_iff_eq, hc, false_or,
        ih (fun m => h (by simp [m])), List.cons.injEq]
      exact ⟨fun ⟨a, b⟩ => ⟨a.symm, b⟩, fun ⟨a, b⟩ => ⟨a.symm, b⟩⟩

theorem globMatch_any (k : Nat) (n : Bytes) :
    globMatch (List.replicate k quest) n = true ↔ n.length = k := by
  induction k generalizing n with
  | zero => cases n <;> simp [globMatch]
  | succ k ih => cases n <;> simp [globMatch, List.replicate_succ, ih]

theorem underscoreit_eq {x : Bytes} {n : Nat} (h : x.length ≤ n) : underscoreit x n = paddedTo x n := by
  rw [underscoreit, StdString.resize, List.take_of_length_le h]; rfl

theorem paddedTo_length {x : Bytes} {n : Nat} (h : x.length ≤ n) : (paddedTo x n).length = n := by
  simp [paddedTo, padded]; omega

theorem quest_not_padded {x : Bytes} {n : Nat} (h : quest ∉ x) : quest ∉ paddedTo x n := by
  intro hm
  rcases List.mem_append.1 hm with hm | hm
  · exact h hm
  · exact absurd (List.eq_of_mem_replicate hm) (by decide)

theorem slash_not_padded {x : Bytes} {n : Nat} (h : slash ∉ x) : slash ∉ paddedTo x n := by
  intro hm
  rcases List.mem_append.1 hm with hm | hm
  · exact h hm
  · exact absurd (List.eq_of_mem_replicate hm) (by decide)

/-- The name part of the patterns. -/
def logueName (kind : String) (fa : FileAccess) : Bytes :=
  fa.resolution ++ str "-???-??????-" ++ underscoreit fa.productid1 12
    ++ [dash] ++ underscoreit [under] 9 ++ [dash] ++ str kind ++ fa.timing ++ str "-__"

def segmentName (fa : FileAccess) : Bytes :=
  fa.resolution ++ str "-???-??????-" ++ underscoreit fa.productid1 12
    ++ [dash] ++ underscoreit fa.productid2 9 ++ [dash] ++ str "0?????___" ++ [dash] ++ fa.timing
    ++ [dash] ++ str "C_"

theorem wild (n : Bytes) : globMatch (str "-???-??????-") n = true ↔
    ∃ a b, n = str "-" ++ a ++ str "-" ++ b ++ str "-" ∧ a.length = 3 ∧ b.length = 6 := by
  rw [show str "-???-??????-" = str "-" ++ (List.replicate 3 quest ++ (str "-" ++
    (List.replicate 6 quest ++ str "-"))) from rfl]
  simp only [globMatch_append, globMatch_any, globMatch_lit (show quest ∉ str "-" by decide)]
  constructor
  · rintro ⟨_, _, rfl, rfl, a, _, rfl, ha, _, _, rfl, rfl, b, _, rfl, hb, rfl⟩
    exact ⟨a, b, by simp, ha, hb⟩
  · rintro ⟨a, b, rfl, ha, hb⟩
    exact ⟨_, _, by simp only [List.append_assoc], rfl, a, _, rfl, ha, _, _, rfl, rfl, b, _, rfl, hb, rfl⟩

theorem logueName_match {kind : String} {fa : FileAccess} (hk : quest ∉ str kind)
    (h1 : quest ∉ fa.resolution) (h2 : quest ∉ fa.productid1) (h3 : quest ∉ fa.timing)
    (hl : fa.productid1.length ≤ 12) (n : Bytes) :
    globMatch (logueName kind fa) n = true ↔ ∃ a b, a.length = 3 ∧ b.length = 6 ∧
      n = fa.resolution ++ str "-" ++ a ++ str "-" ++ b ++ str "-" ++ paddedTo fa.productid1 12 ++ str "-"
        ++ paddedTo [] 9 ++ str "-" ++ str kind ++ fa.timing ++ str "-__" := by
  have e : logueName kind fa = fa.resolution ++ (str "-???-??????-" ++
      (paddedTo fa.productid1 12 ++ (str "-" ++ paddedTo [] 9 ++ str "-" ++ str kind ++ fa.timing ++ str "-__"))) := by
    rw [logueName, underscoreit_eq hl, show underscoreit [under] 9 = paddedTo [] 9 from rfl,
      show [dash] = str "-" from rfl]
    simp only [List.append_assoc]
  have hlit : quest ∉ str "-" ++ paddedTo [] 9 ++ str "-" ++ str kind ++ fa.timing ++ str "-__" := by
    simp only [List.mem_append, not_or]
    exact ⟨⟨⟨⟨⟨by decide, by decide⟩, by decide⟩, hk⟩, h3⟩, by decide⟩
  simp only [e, globMatch_append, globMatch_lit h1, wild, globMatch_lit (quest_not_padded h2),
    globMatch_lit hlit]
  constructor
  · rintro ⟨_, _, rfl, rfl, _, _, rfl, ⟨a, b, rfl, ha, hb⟩, _, _, rfl, rfl, rfl⟩
    exact ⟨a, b, ha, hb, by simp only [List.append_assoc]⟩
  · rintro ⟨a, b, ha, hb, rfl⟩
    exact ⟨_, (str "-" ++ a ++ str "-" ++ b ++ str "-") ++ (paddedTo fa.productid1 12 ++ (str "-" ++
      paddedTo [] 9 ++ str "-" ++ str kind ++ fa.timing ++ str "-__")), by simp only [List.append_assoc],
      rfl, _, _, rfl, ⟨a, b, rfl, ha, hb⟩, _, _, rfl, rfl, rfl⟩

theorem segmentName_match {fa : FileAccess}
    (h1 : quest ∉ fa.resolution) (h2 : quest ∉ fa.productid1) (h2' : quest ∉ fa.productid2)
    (h3 : quest ∉ fa.timing)
    (hl : fa.productid1.length ≤ 12) (hl' : fa.productid2.length ≤ 9) (n : Bytes) :
    globMatch (segmentName fa) n = true ↔ IsSegment fa.resolution fa.productid1 fa.productid2 fa.timing n := by
  have e : segmentName fa = fa.resolution ++ (str "-???-??????-" ++
      ((paddedTo fa.productid1 12 ++ str "-" ++ paddedTo fa.productid2 9 ++ str "-" ++ str "0")
       ++ (List.replicate 5 quest ++ (str "___" ++ str "-" ++ fa.timing ++ str "-" ++ str "C_")))) := by
    rw [segmentName, underscoreit_eq hl, underscoreit_eq hl', show [dash] = str "-" from rfl,
      show str "0?????___" = str "0" ++ (List.replicate 5 quest ++ str "___") from rfl]
    simp only [List.append_assoc]
  have hlit1 : quest ∉ paddedTo fa.productid1 12 ++ str "-" ++ paddedTo fa.productid2 9 ++ str "-" ++ str "0" := by
    simp only [List.mem_append, not_or]
    exact ⟨⟨⟨⟨quest_not_padded h2, by decide⟩, quest_not_padded h2'⟩, by decide⟩, by decide⟩
  have hlit2 : quest ∉ str "___" ++ str "-" ++ fa.timing ++ str "-" ++ str "C_" := by
    simp only [List.mem_append, not_or]
    exact ⟨⟨⟨⟨by decide, by decide⟩, h3⟩, by decide⟩, by decide⟩
  have hpad : ∀ c : Bytes, c.length = 5 → paddedTo (str "0" ++ c) 9 = str "0" ++ (c ++ str "___") := by
    intro c hc
    rw [paddedTo, padded, show 9 - (str "0" ++ c).length = 3 by
      rw [List.length_append, hc]; rfl]
    simp only [List.append_assoc]; rfl
  simp only [e, globMatch_append, globMatch_lit h1, wild, globMatch_lit hlit1, globMatch_any,
    globMatch_lit hlit2, IsSegment, longName]
  constructor
  · rintro ⟨_, _, rfl, rfl, _, _, rfl, ⟨a, b, rfl, ha, hb⟩, _, _, rfl, rfl, c, _, rfl, hc, rfl⟩
    exact ⟨a, b, c, ha, hb, hc, by rw [hpad c hc]; simp only [List.append_assoc]⟩
  · rintro ⟨a, b, c, ha, hb, hc, rfl⟩
    rw [hpad c hc]
    exact ⟨_, (str "-" ++ a ++ str "-" ++ b ++ str "-") ++
      ((paddedTo fa.productid1 12 ++ str "-" ++ paddedTo fa.productid2 9 ++ str "-" ++ str "0")
       ++ (c ++ (str "___" ++ str "-" ++ fa.timing ++ str "-" ++ str "C_"))),
      by simp only [List.append_assoc],
      rfl, _, _, rfl, ⟨a, b, rfl, ha, hb⟩, _, _, rfl, rfl, c, _, rfl, hc, rfl⟩

theorem glob_at {ls : Bytes → List Bytes} {d name : Bytes} (h : slash ∉ name) :
    glob ls (d ++ slash :: name) = ((ls d).filter (globMatch name)).map (fun n => d ++ str "/" ++ n) := by
  simp only [glob, rfind_sep rfl h]
  have e1 : substr (d ++ slash :: name) 0 d.length = d := by simp [substr]
  have e2 : substrFrom (d ++ slash :: name) (d.length + 1) = name := by simp [substrFrom, ← List.drop_drop]
  rw [e1, e2]; rfl

end Msat.Xrit
