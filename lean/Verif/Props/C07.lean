import Verif.Lemmas.Glob

/-
C07 Prologue, epilogue and segment searches select exactly the product's files.
-/
namespace Msat.Props
open Msat Xrit XritSpec StdString

/-- A product with plain components. -/
abbrev PlainProduct (fa : FileAccess) : Prop :=
  Plain fa.resolution fa.productid1 fa.productid2 fa.timing

theorem noq {x : Bytes} (h : NoSpecial x) : quest ∉ x := h quest (by decide)
theorem nos {x : Bytes} (h : NoSpecial x) : slash ∉ x := h slash (by decide)

theorem logueName_noslash {kind : String} {fa : FileAccess} (hp : PlainProduct fa)
    (hk : slash ∉ str kind) : slash ∉ logueName kind fa := by
  simp only [logueName, List.mem_append, not_or, underscoreit_eq hp.fit1]
  exact ⟨⟨⟨⟨⟨⟨⟨⟨nos hp.res, by decide⟩, slash_not_padded (nos hp.p1)⟩, by decide⟩, by decide⟩,
    by decide⟩, hk⟩, nos hp.time⟩, by decide⟩

theorem segmentName_noslash {fa : FileAccess} (hp : PlainProduct fa) : slash ∉ segmentName fa := by
  simp only [segmentName, List.mem_append, not_or, underscoreit_eq hp.fit1, underscoreit_eq hp.fit2]
  exact ⟨⟨⟨⟨⟨⟨⟨⟨⟨⟨nos hp.res, by decide⟩, slash_not_padded (nos hp.p1)⟩, by decide⟩,
    slash_not_padded (nos hp.p2)⟩, by decide⟩, by decide⟩, by decide⟩, nos hp.time⟩, by decide⟩, by decide⟩

theorem logue_iff {kind k6 : String} (hk : str kind = str k6 ++ str "______-") (hk6 : (str k6).length = 3)
    (hq : quest ∉ str kind) {fa : FileAccess} (hp : PlainProduct fa) (n : Bytes) :
    globMatch (logueName kind fa) n = true ↔ IsLogue k6 fa.resolution fa.productid1 fa.timing n := by
  rw [logueName_match hq (noq hp.res) (noq hp.p1) (noq hp.time) hp.fit1 n, IsLogue]
  have e : paddedTo (str k6) 9 = str k6 ++ str "______" := by
    rw [paddedTo, padded, hk6]; rfl
  have e2 : str "______-" = str "______" ++ str "-" := rfl
  have e3 : str "-__" = str "-" ++ str "__" := rfl
  simp only [longName, e, hk, e2, e3, List.append_assoc]

theorem prologue_glob (ls : Bytes → List Bytes) {fa : FileAccess} (hp : PlainProduct fa) :
    glob ls (prologuePattern fa) = ((ls fa.directory).filter (globMatch (logueName "PRO______-" fa))).map
      (fun n => fa.directory ++ str "/" ++ n) := by
  rw [← glob_at (logueName_noslash hp (by decide))]
  congr 1
  simp only [prologuePattern, logueName, List.append_assoc, List.cons_append, List.nil_append]

theorem epilogue_glob (ls : Bytes → List Bytes) {fa : FileAccess} (hp : PlainProduct fa) :
    glob ls (epiloguePattern fa) = ((ls fa.directory).filter (globMatch (logueName "EPI______-" fa))).map
      (fun n => fa.directory ++ str "/" ++ n) := by
  rw [← glob_at (logueName_noslash hp (by decide))]
  congr 1
  simp only [epiloguePattern, logueName, List.append_assoc, List.cons_append, List.nil_append]

theorem segment_glob (ls : Bytes → List Bytes) {fa : FileAccess} (hp : PlainProduct fa) :
    glob ls (segmentPattern fa) = ((ls fa.directory).filter (globMatch (segmentName fa))).map
      (fun n => fa.directory ++ str "/" ++ n) := by
  rw [← glob_at (segmentName_noslash hp)]
  congr 1
  simp only [segmentPattern, segmentName, List.append_assoc, List.cons_append, List.nil_append]

/-- Selecting the only entry of a list that satisfies `P`. -/
theorem univocal_iff {l : List Bytes} (hn : l.Nodup) {m : Bytes → Bool} {P : Bytes → Prop}
    (hm : ∀ n, m n = true ↔ P n) (d : Bytes) (f : Bytes) :
    univocal ((l.filter m).map fun n => d ++ str "/" ++ n) = .ok f ↔
      ∃ n ∈ l, f = d ++ str "/" ++ n ∧ P n ∧ ∀ n' ∈ l, P n' → n' = n := by
  have hnf : (l.filter m).Nodup := List.Pairwise.filter m hn
  have hmem : ∀ n, n ∈ l.filter m ↔ n ∈ l ∧ P n := fun n => by rw [List.mem_filter, hm]
  cases hc : l.filter m with
  | nil =>
    simp only [List.map_nil, univocal]
    refine ⟨fun h => absurd h (by simp), fun ⟨n, h1, _, h2, _⟩ => ?_⟩
    have := (hmem n).2 ⟨h1, h2⟩
    rw [hc] at this; exact absurd this (by simp)
  | cons a r =>
    cases r with
    | nil =>
      simp only [List.map_cons, List.map_nil, univocal, Outcome.ok.injEq]
      have ha := (hmem a).1 (by rw [hc]; simp)
      constructor
      · rintro rfl
        refine ⟨a, ha.1, rfl, ha.2, fun n' h1 h2 => ?_⟩
        have := (hmem n').2 ⟨h1, h2⟩
        rw [hc] at this; simpa using this
      · rintro ⟨n, h1, rfl, h2, h3⟩
        rw [h3 a ha.1 ha.2]
    | cons b r =>
      simp only [List.map_cons, univocal]
      refine ⟨fun h => absurd h (by simp), fun ⟨n, h1, _, h2, h3⟩ => ?_⟩
      have ha := (hmem a).1 (by rw [hc]; simp)
      have hb := (hmem b).1 (by rw [hc]; simp)
      rw [hc] at hnf
      have : a ≠ b := by
        intro e
        rw [e] at hnf
        exact absurd hnf (by simp)
      exact absurd ((h3 a ha.1 ha.2).trans (h3 b hb.1 hb.2).symm) this

theorem univocal_handled (l : List Bytes) : (univocal l).Handled := by
  match l with
  | [] => trivial
  | [_] => trivial
  | _ :: _ :: _ => trivial

/-- The prologue search returns a file exactly when it is the only file of the directory named as a
prologue of the product. -/
theorem C07_prologue (ls : Bytes → List Bytes) (fa : FileAccess) (hp : PlainProduct fa)
    (hn : (ls fa.directory).Nodup) (f : Bytes) :
    prologueFile ls fa = .ok f ↔
      ∃ n ∈ ls fa.directory, f = fa.directory ++ str "/" ++ n ∧
        IsLogue "PRO" fa.resolution fa.productid1 fa.timing n ∧
        ∀ n' ∈ ls fa.directory, IsLogue "PRO" fa.resolution fa.productid1 fa.timing n' → n' = n := by
  rw [prologueFile, prologue_glob ls hp]
  exact univocal_iff hn (logue_iff rfl rfl (by decide) hp) _ _

/-- The epilogue search returns a file exactly when it is the only file of the directory named as an
epilogue of the product. -/
theorem C07_epilogue (ls : Bytes → List Bytes) (fa : FileAccess) (hp : PlainProduct fa)
    (hn : (ls fa.directory).Nodup) (f : Bytes) :
    epilogueFile ls fa = .ok f ↔
      ∃ n ∈ ls fa.directory, f = fa.directory ++ str "/" ++ n ∧
        IsLogue "EPI" fa.resolution fa.productid1 fa.timing n ∧
        ∀ n' ∈ ls fa.directory, IsLogue "EPI" fa.resolution fa.productid1 fa.timing n' → n' = n := by
  rw [epilogueFile, epilogue_glob ls hp]
  exact univocal_iff hn (logue_iff rfl rfl (by decide) hp) _ _

/-- In the other cases the searches throw an exception. -/
theorem C07_logue_otherwise_throws (ls : Bytes → List Bytes) (fa : FileAccess) :
    (prologueFile ls fa).Handled ∧ (epilogueFile ls fa).Handled :=
  ⟨univocal_handled _, univocal_handled _⟩

/-- The segment search returns exactly the files of the directory named as segments of the product,
each once, and throws when there are none. -/
theorem C07_segments (ls : Bytes → List Bytes) (fa : FileAccess) (hp : PlainProduct fa)
    (hn : (ls fa.directory).Nodup) :
    ((∃ n ∈ ls fa.directory, IsSegment fa.resolution fa.productid1 fa.productid2 fa.timing n) →
      ∃ fs, segmentFiles ls fa = .ok fs ∧ fs.Nodup ∧ ∀ f, f ∈ fs ↔
        ∃ n ∈ ls fa.directory, f = fa.directory ++ str "/" ++ n ∧
          IsSegment fa.resolution fa.productid1 fa.productid2 fa.timing n) ∧
    ((¬ ∃ n ∈ ls fa.directory, IsSegment fa.resolution fa.productid1 fa.productid2 fa.timing n) →
      (segmentFiles ls fa).Throws) := by
  have hm := segmentName_match (noq hp.res) (noq hp.p1) (noq hp.p2) (noq hp.time) hp.fit1 hp.fit2
  have hmem : ∀ n, n ∈ (ls fa.directory).filter (globMatch (segmentName fa)) ↔
      n ∈ ls fa.directory ∧ IsSegment fa.resolution fa.productid1 fa.productid2 fa.timing n :=
    fun n => by rw [List.mem_filter, hm]
  rw [segmentFiles, segment_glob ls hp]
  constructor
  · rintro ⟨n, h1, h2⟩
    have hin := (hmem n).2 ⟨h1, h2⟩
    refine ⟨((ls fa.directory).filter (globMatch (segmentName fa))).map
      (fun n => fa.directory ++ str "/" ++ n), ?_, ?_, ?_⟩
    · cases hc : (ls fa.directory).filter (globMatch (segmentName fa)) with
      | nil => rw [hc] at hin; exact absurd hin (by simp)
      | cons a r => rfl
    · exact List.Pairwise.map _ (fun a b hab e => hab (List.append_cancel_left e))
        (List.Pairwise.filter _ hn)
    · intro f
      simp only [List.mem_map, hmem]
      constructor
      · rintro ⟨n, ⟨a, b⟩, rfl⟩; exact ⟨n, a, rfl, b⟩
      · rintro ⟨n, a, rfl, b⟩; exact ⟨n, ⟨a, b⟩, rfl⟩
  · intro h
    have : (ls fa.directory).filter (globMatch (segmentName fa)) = [] := by
      rw [List.eq_nil_iff_forall_not_mem]
      intro n hn
      exact h ⟨n, (hmem n).1 hn⟩
    rw [this]; trivial

theorem cut_dash {a a' b b' : Bytes} {c : UInt8} (h : c ∉ a) (h' : c ∉ a')
    (e : a ++ c :: b = a' ++ c :: b') : a = a' ∧ b = b' := by
  induction a generalizing a' with
  | nil =>
    cases a' with
    | nil => simpa using e
    | cons x a' =>
      simp only [List.nil_append, List.cons_append, List.cons.injEq] at e
      exact absurd (by simp [e.1]) h'
  | cons x a ih =>
    cases a' with
    | nil =>
      simp only [List.nil_append, List.cons_append, List.cons.injEq] at e
      exact absurd (by simp [e.1]) h
    | cons y a' =>
      simp only [List.cons_append, List.cons.injEq] at e
      have := ih (fun m => h (by simp [m])) (fun m => h' (by simp [m])) e.2
      exact ⟨by rw [e.1, this.1], this.2⟩

/-- File names determine their parts: the resolution is what precedes the first dash and the other
parts have fixed lengths. -/
theorem longName_inj {res number sat q1 q2 seg time last res' number' sat' q1' q2' seg' time' last' : Bytes}
    (hr : dash ∉ res) (hr' : dash ∉ res') (h3 : number.length = number'.length)
    (h6 : sat.length = sat'.length) (h12 : q1.length = q1'.length) (h9 : q2.length = q2'.length)
    (hs : seg.length = seg'.length) (hl : last.length = last'.length)
    (e : longName res number sat q1 q2 seg time last
      = longName res' number' sat' q1' q2' seg' time' last') :
    res = res' ∧ q1 = q1' ∧ q2 = q2' ∧ seg = seg' ∧ time = time' ∧ last = last' := by
  simp only [longName, List.append_assoc] at e
  rw [show str "-" = [dash] from rfl] at e
  simp only [List.cons_append, List.nil_append] at e
  obtain ⟨e1, e⟩ := cut_dash (c := dash) hr hr' e
  obtain ⟨_, e⟩ := List.append_inj e h3
  obtain ⟨_, e⟩ := List.append_inj (List.cons.inj e).2 h6
  obtain ⟨e2, e⟩ := List.append_inj (List.cons.inj e).2 h12
  obtain ⟨e3, e⟩ := List.append_inj (List.cons.inj e).2 h9
  obtain ⟨e4, e⟩ := List.append_inj (List.cons.inj e).2 hs
  have e := (List.cons.inj e).2
  obtain ⟨e5, e⟩ := List.append_inj' e (by simp [hl])
  exact ⟨e1, e2, e3, e4, e5, (List.cons.inj e).2⟩

/-- No file is of two kinds, even for two different products. -/
theorem C07_disjoint (fa fa' : FileAccess) (hp : PlainProduct fa) (hp' : PlainProduct fa')
    (hd : dash ∉ fa.resolution) (hd' : dash ∉ fa'.resolution) (n : Bytes) :
    ¬ (IsLogue "PRO" fa.resolution fa.productid1 fa.timing n ∧
        IsLogue "EPI" fa'.resolution fa'.productid1 fa'.timing n) ∧
    ¬ (IsLogue "PRO" fa.resolution fa.productid1 fa.timing n ∧
        IsSegment fa'.resolution fa'.productid1 fa'.productid2 fa'.timing n) ∧
    ¬ (IsLogue "EPI" fa.resolution fa.productid1 fa.timing n ∧
        IsSegment fa'.resolution fa'.productid1 fa'.productid2 fa'.timing n) := by
  have l9 : ∀ kind : String, (str kind).length = 3 → (paddedTo (str kind) 9).length = 9 :=
    fun _ h => paddedTo_length (by omega)
  have l0 : (paddedTo [] 9).length = 9 := paddedTo_length (by decide)
  have ls : ∀ c : Bytes, c.length = 5 → (paddedTo (str "0" ++ c) 9).length = 9 := fun c hc =>
    paddedTo_length (by rw [List.length_append, hc]; decide)
  refine ⟨?_, ?_, ?_⟩
  · rintro ⟨⟨a, b, ha, hb, rfl⟩, ⟨a', b', ha', hb', e⟩⟩
    have := longName_inj hd hd' (ha.trans ha'.symm) (hb.trans hb'.symm)
      ((paddedTo_length hp.fit1).trans (paddedTo_length hp'.fit1).symm) rfl
      ((l9 "PRO" (by decide)).trans (l9 "EPI" (by decide)).symm) rfl e
    exact absurd this.2.2.2.1 (by decide)
  · rintro ⟨⟨a, b, ha, hb, rfl⟩, ⟨a', b', c', ha', hb', hc', e⟩⟩
    have := longName_inj hd hd' (ha.trans ha'.symm) (hb.trans hb'.symm)
      ((paddedTo_length hp.fit1).trans (paddedTo_length hp'.fit1).symm)
      (l0.trans (paddedTo_length hp'.fit2).symm)
      ((l9 "PRO" (by decide)).trans (ls c' hc').symm) (by decide) e
    exact absurd this.2.2.2.2.2 (by decide)
  · rintro ⟨⟨a, b, ha, hb, rfl⟩, ⟨a', b', c', ha', hb', hc', e⟩⟩
    have := longName_inj hd hd' (ha.trans ha'.symm) (hb.trans hb'.symm)
      ((paddedTo_length hp.fit1).trans (paddedTo_length hp'.fit1).symm)
      (l0.trans (paddedTo_length hp'.fit2).symm)
      ((l9 "EPI" (by decide)).trans (ls c' hc').symm) (by decide) e
    exact absurd this.2.2.2.2.2 (by decide)

/-- Names that do not end with an underscore are determined by their padded form. -/
theorem paddedTo_inj {x y : Bytes} {n : Nat} (hx : x.getLast? ≠ some under) (hy : y.getLast? ≠ some under)
    (e : paddedTo x n = paddedTo y n) : x = y := by
  have key : ∀ (x : Bytes) (k : Nat), x.getLast? ≠ some under →
      ((padded x k).reverse.dropWhile (· == under)).reverse = x := by
    intro x k h
    rw [padded, List.reverse_append, List.reverse_replicate,
      List.dropWhile_append_of_pos (by intro a ha; simpa [under] using List.eq_of_mem_replicate ha)]
    cases hr : x.reverse with
    | nil =>
      have := List.reverse_eq_nil_iff.1 hr
      rw [this]; rfl
    | cons a r =>
      have hl : x.getLast? = some a := by
        rw [← List.head?_reverse, hr]; rfl
      have ha : (a == under) = false := by
        rw [beq_eq_false_iff_ne]; intro e; exact h (by rw [hl, e])
      rw [List.dropWhile_cons, ha]
      simp [← hr]
  have h1 := key x (n - x.length) hx
  have h2 := key y (n - y.length) hy
  rw [paddedTo, paddedTo] at e
  rw [← h1, ← h2, e]

/-- A segment file belongs to one product only. -/
theorem C07_segment_product_unique (fa fa' : FileAccess) (hp : PlainProduct fa) (hp' : PlainProduct fa')
    (hd : dash ∉ fa.resolution) (hd' : dash ∉ fa'.resolution)
    (hu : ∀ x ∈ [fa.productid1, fa.productid2, fa'.productid1, fa'.productid2], x.getLast? ≠ some under)
    (n : Bytes) (h : IsSegment fa.resolution fa.productid1 fa.productid2 fa.timing n)
    (h' : IsSegment fa'.resolution fa'.productid1 fa'.productid2 fa'.timing n) :
    fa.resolution = fa'.resolution ∧ fa.productid1 = fa'.productid1 ∧ fa.productid2 = fa'.productid2 ∧
      fa.timing = fa'.timing := by
  obtain ⟨a, b, c, ha, hb, hc, rfl⟩ := h
  obtain ⟨a', b', c', ha', hb', hc', e⟩ := h'
  have hl : ∀ c : Bytes, c.length = 5 → (paddedTo (str "0" ++ c) 9).length = 9 := fun c hc =>
    paddedTo_length (by rw [List.length_append, hc]; decide)
  have := longName_inj hd hd' (ha.trans ha'.symm) (hb.trans hb'.symm)
    ((paddedTo_length hp.fit1).trans (paddedTo_length hp'.fit1).symm)
    ((paddedTo_length hp.fit2).trans (paddedTo_length hp'.fit2).symm)
    ((hl c hc).trans (hl c' hc').symm) rfl e
  exact ⟨this.1, paddedTo_inj (hu _ (by simp)) (hu _ (by simp)) this.2.1,
    paddedTo_inj (hu _ (by simp)) (hu _ (by simp)) this.2.2.1, this.2.2.2.2.1⟩

/-- A product and a directory that holds its prologue and two segments among other files. -/
def aProduct : FileAccess := ⟨str "/data", str "H", str "MSG1", str "HRV", str "200611141200"⟩

def aListing (d : Bytes) : List Bytes :=
  if d = str "/data" then
    [str "README", str "H-000-MSG1__-MSG1________-_________-PRO______-200611141200-__",
     str "H-000-MSG1__-MSG1________-HRV______-000018___-200611141200-C_",
     str "H-000-MSG1__-MSG1________-HRV______-000019___-200611141200-C_",
     str "H-000-MSG1__-MSG1________-IR_108___-000001___-200611141200-C_"]
  else []

theorem aProduct_plain : PlainProduct aProduct :=
  ⟨by unfold NoSpecial; decide, by unfold NoSpecial; decide, by unfold NoSpecial; decide,
    by unfold NoSpecial; decide, by decide, by decide⟩

example : (aListing aProduct.directory).Nodup ∧
    prologueFile aListing aProduct
      = .ok (str "/data/H-000-MSG1__-MSG1________-_________-PRO______-200611141200-__") ∧
    (epilogueFile aListing aProduct).Throws ∧
    (match segmentFiles aListing aProduct with | .ok fs => fs.length | _ => 0) = 2 := by
  decide +kernel

/-- A satellite name longer than its field is cut: the products of two satellites whose names have
the same first twelve characters are not distinguished. -/
theorem C07_violated_long_name :
    let fa : FileAccess := ⟨str "d", str "H", str "METEOSAT-10-RSS", str "HRV", str "t"⟩
    let fa' : FileAccess := ⟨str "d", str "H", str "METEOSAT-10-IODC", str "HRV", str "t"⟩
    fa.productid1 ≠ fa'.productid1 ∧ segmentPattern fa = segmentPattern fa' := by
  decide +kernel

end Msat.Props
