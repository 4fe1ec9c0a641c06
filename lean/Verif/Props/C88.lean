import Verif.Props.C87

/-
C88 Printing an xRIT file that was read shows its content.
-/
namespace Msat.Props
open Msat Machine Spec Hrit HritSpec Layout

/-- Reading a file and printing its data, as `xritdump` does without options. -/
def readAndPrint (env : Env) (file : Bytes) : Outcome Shown := do
  let (_, d, _) ← readFile env file
  printData d

/-- C88: of a compressed image (of less than 2³¹ pixels) all the pixels are printed, in order. -/
theorem C88_image (env : Env) (rs : List Rec) (data rest : Bytes) (hf : FileOk 0 rs data)
    (bpp cols lines comp sc ch sq st en format : Nat)
    (hs : structureOf rs = some (bpp, cols, lines, comp)) (hc : comp ≠ 0)
    (hid : segmentOf rs = some (sc, ch, sq, st, en, format)) (hfm : format = 1 ∨ format = 2 ∨ format = 3)
    (img : List Nat) (hd : env.decode format bpp cols lines data = .ok img)
    (hlen : cols * lines ≤ img.length) (hpix : cols * lines < 2 ^ 31)
    (hm : env.alloc data.length = true) (hm' : env.alloc (2 * (cols * lines)) = true) :
    readAndPrint env (fileOf 0 rs data rest) = .ok (.samples (img.take (cols * lines))) := by
  obtain ⟨h, e⟩ := C87_image env rs data rest hf bpp cols lines comp sc ch sq st en format hs hc hid hfm img
    hd hlen hm hm'
  have hi : toInt32 (cols * lines) = (cols * lines : Nat) := by
    unfold toInt32
    rw [Nat.mod_eq_of_lt (by omega), if_pos hpix]
  have hl : (img.take (cols * lines)).length = cols * lines := by rw [List.length_take]; omega
  simp only [readAndPrint, e, Outcome.ok_bind, printData, printImage, hi, hl, Int.le_refl, if_true,
    Int.toNat_natCast, List.take_take, Nat.min_self, Outcome.pure_eq]

example : readAndPrint aMachine (fileOf 0 anImage [9, 8, 7] []) = .ok (.samples [10, 20, 30, 40, 50, 60]) :=
  C88_image aMachine anImage _ _ (anImage_ok _ (by decide +kernel)) 10 3 2 1 321 4 3 1 8 2 rfl (by decide)
    rfl (by decide) _ rfl (by decide) (by decide) rfl rfl

/-- **Partial.** C88: of a text that ends with a NUL all the characters before the first NUL are
printed.
Missing: a text without a NUL (below). -/
theorem C88_text_partial (env : Env) (rs : List Rec) (text more rest : Bytes)
    (hf : FileOk 2 rs (text ++ 0 :: more)) (hm : env.alloc (text ++ 0 :: more).length = true)
    (h0 : (0 : UInt8) ∉ text) :
    readAndPrint env (fileOf 2 rs (text ++ 0 :: more) rest) = .ok (.text text) := by
  obtain ⟨h, e⟩ := C87_text env rs _ rest hf hm (by simp)
  have ht : (text ++ 0 :: more).takeWhile (· ≠ (0 : UInt8)) = text := by
    clear hf hm e
    induction text with
    | nil => simp
    | cons a t ih =>
      have ha : a ≠ 0 := fun h => h0 (by simp [h])
      rw [List.cons_append, List.takeWhile_cons, if_pos (by simpa using ha),
        ih (fun h => h0 (by simp [h]))]
  simp only [readAndPrint, e, Outcome.ok_bind, printData, cString,
    if_pos (show (0 : UInt8) ∈ text ++ 0 :: more by simp), ht, Outcome.pure_eq]

example : readAndPrint aMachine (fileOf 2 (annotated "MSG1________") (str "hello" ++ 0 :: []) [])
    = .ok (.text (str "hello")) :=
  C88_text_partial aMachine _ _ _ _ (annotated_ok 2 (by decide) _ (by decide +kernel)).2 rfl (by decide)

/-- A text without a NUL is read past its end. -/
theorem C88_violated_text (env : Env) (rs : List Rec) (data rest : Bytes) (hf : FileOk 2 rs data)
    (hm : env.alloc data.length = true) (h0 : data ≠ []) (hz : (0 : UInt8) ∉ data) :
    readAndPrint env (fileOf 2 rs data rest) = .ub := by
  obtain ⟨h, e⟩ := C87_text env rs _ rest hf hm h0
  simp only [readAndPrint, e, Outcome.ok_bind, printData, cString, if_neg hz, Outcome.ub_bind]

/-- The keys of a file, with their numbers and texts as they are read: one byte too early, as
`C05_violated_key_message` says. -/
theorem keyMessage_public (ρ : Path → Val) (pre post : Bytes) (hr : keyMessageLay.InRange ρ) :
    ∃ num, run keyMessage (pre ++ keyMessageLay.encode ρ ++ post) pre.length
      = .ok ([([.f "User_Station_number"], ρ [.f "User_Station_number"]), ([.f "Key_Number"], num),
              ([.f "Public_key"], .bytes (((keyMessageLay.encode ρ).drop 2).take 192)),
              ([.f "Public_Key_CRC"], ρ [.f "Public_Key_CRC"])], 197) := by
  obtain ⟨num, pub, e⟩ := keyMessage_run ρ pre post hr
  have hlen : (keyMessageLay.encode ρ).length = 197 := Lay.encode_length _ _ hr
  refine ⟨num, ?_⟩
  suffices pub = .bytes (((keyMessageLay.encode ρ).drop 2).take 192) by rw [← this, e]
  have hs : slice (pre ++ keyMessageLay.encode ρ ++ post) (pre.length + 0 + 2) 192
      = .ok (((keyMessageLay.encode ρ).drop 2).take 192) := by
    refine slice_pre (pre := pre ++ (keyMessageLay.encode ρ).take 2)
      (post := (keyMessageLay.encode ρ).drop 194 ++ post) ?_ (by simp [hlen]) (by simp [hlen])
    simp only [List.append_assoc]
    congr 1
    rw [← List.append_assoc, ← List.append_assoc]
    congr 1
    generalize keyMessageLay.encode ρ = E
    rw [List.append_assoc, show List.drop 194 E = (E.drop 2).drop 192 by rw [List.drop_drop],
      List.take_append_drop, List.take_append_drop]
  have hsh : keyMessage pre.length = ([⟨[.f "User_Station_number"], pre.length + 0 + 0, .u2⟩,
      ⟨[.f "Key_Number"], pre.length + 0 + 1, .u1⟩, ⟨[.f "Public_key"], pre.length + 0 + 2, .mem 192 192⟩,
      ⟨[.f "Public_Key_CRC"], pre.length + 0 + 195, .u2⟩], 197) := rfl
  generalize pre ++ keyMessageLay.encode ρ ++ post = buf at *
  simp only [run, hsh, runReads] at e
  obtain ⟨a, ha, e⟩ := Outcome.of_bind_ok e
  obtain ⟨v1, h1, ha⟩ := Outcome.of_bind_ok ha
  obtain ⟨l1, hl1, ha⟩ := Outcome.of_bind_ok ha
  obtain ⟨v2, h2, hl1⟩ := Outcome.of_bind_ok hl1
  obtain ⟨l2, hl2, hl1⟩ := Outcome.of_bind_ok hl1
  obtain ⟨v3, h3, hl2⟩ := Outcome.of_bind_ok hl2
  obtain ⟨l3, hl3, hl2⟩ := Outcome.of_bind_ok hl2
  have h3' : readField (.mem 192 192) buf (pre.length + 0 + 2)
      = .ok (.bytes (((keyMessageLay.encode ρ).drop 2).take 192)) := by
    simp only [readField, hs, Outcome.ok_bind]
    rfl
  have h3 := h3.symm.trans h3'
  cases h3; cases hl2; cases hl1; cases ha; cases e
  rfl

/-- The 192 bytes taken for the key. -/
def keyBytes (ρ : Path → Val) : Bytes := ((keyMessageLay.encode ρ).drop 2).take 192

theorem keyLoop_public (ρs : List (Path → Val)) : ∀ (pre post : Bytes),
    (∀ ρ ∈ ρs, keyMessageLay.InRange ρ) →
    ∃ ks, keyLoop (pre ++ (ρs.flatMap keyMessageLay.encode ++ post)) pre.length ρs.length = .ok ks ∧
      ks.map (fun k => (k.lookup [.f "User_Station_number"], (k.lookup [.f "Key_Number"]).isSome,
          k.lookup [.f "Public_key"], k.lookup [.f "Public_Key_CRC"]))
        = ρs.map (fun ρ => (some (ρ [.f "User_Station_number"]), true, some (.bytes (keyBytes ρ)),
            some (ρ [.f "Public_Key_CRC"]))) := by
  induction ρs with
  | nil => intro pre post _; exact ⟨[], rfl, rfl⟩
  | cons ρ ρs ih =>
    intro pre post h
    have hr := h ρ (by simp)
    obtain ⟨num, hk⟩ := keyMessage_public ρ pre (ρs.flatMap keyMessageLay.encode ++ post) hr
    obtain ⟨ks, h1, h2⟩ := ih (pre ++ keyMessageLay.encode ρ) post (fun ρ' h' => h ρ' (by simp [h']))
    have hlen : (keyMessageLay.encode ρ).length = 197 := Lay.encode_length _ _ hr
    simp only [List.append_assoc, List.length_append, hlen] at hk h1
    refine ⟨[([.f "User_Station_number"], ρ [.f "User_Station_number"]), ([.f "Key_Number"], num),
              ([.f "Public_key"], .bytes (keyBytes ρ)),
              ([.f "Public_Key_CRC"], ρ [.f "Public_Key_CRC"])] :: ks, ?_, ?_⟩
    · simp only [List.flatMap_cons, List.append_assoc, List.length_cons, keyLoop, hk, h1,
        Outcome.ok_bind, Outcome.pure_eq, keyBytes]
    · rw [List.map_cons, List.map_cons, h2]
      rfl

theorem printKeys_spec : ∀ (ρs : List (Path → Val)) (ks : List (List (Path × Val))),
    ks.map (fun k => (k.lookup [.f "User_Station_number"], (k.lookup [.f "Key_Number"]).isSome,
          k.lookup [.f "Public_key"], k.lookup [.f "Public_Key_CRC"]))
        = ρs.map (fun ρ => (some (ρ [.f "User_Station_number"]), true, some (.bytes (keyBytes ρ)),
            some (ρ [.f "Public_Key_CRC"]))) →
    ((∀ ρ ∈ ρs, (0 : UInt8) ∈ keyBytes ρ) → ∃ out, printKeys ks = .ok out ∧
      out.map (fun x => (x.1, x.2.2.2)) = ρs.map (fun ρ => (ρ [.f "User_Station_number"], ρ [.f "Public_Key_CRC"]))) ∧
    ((∃ ρ ∈ ρs, (0 : UInt8) ∉ keyBytes ρ) → printKeys ks = .ub) := by
  intro ρs
  induction ρs with
  | nil =>
    intro ks h
    have : ks = [] := by simpa using h
    subst this
    exact ⟨fun _ => ⟨[], rfl, rfl⟩, fun h => by simp at h⟩
  | cons ρ ρs ih =>
    intro ks h
    match ks, h with
    | k :: ks, h =>
      rw [List.map_cons, List.map_cons, List.cons.injEq] at h
      obtain ⟨hk, h⟩ := h
      simp only [Prod.mk.injEq] at hk
      obtain ⟨k1, k2, k3, k4⟩ := hk
      obtain ⟨num, k2⟩ := Option.isSome_iff_exists.1 k2
      obtain ⟨ih1, ih2⟩ := ih ks h
      have hpk : printKey k = (cString (keyBytes ρ) >>= fun t =>
          pure (ρ [.f "User_Station_number"], num, t, ρ [.f "Public_Key_CRC"])) := by
        simp only [printKey, k1, k2, k3, k4]
      constructor
      · intro hz
        obtain ⟨out, e, ho⟩ := ih1 (fun ρ' h' => hz ρ' (by simp [h']))
        have h0 := hz ρ (by simp)
        refine ⟨_, by simp only [printKeys, hpk, cString, if_pos h0, Outcome.ok_bind, Outcome.pure_eq, e]; rfl, ?_⟩
        rw [List.map_cons, List.map_cons, ho]
      · intro hz
        by_cases h0 : (0 : UInt8) ∈ keyBytes ρ
        · obtain ⟨ρ', h', hz⟩ := hz
          have : ρ' ∈ ρs := by
            rcases List.mem_cons.1 h' with rfl | h'
            · exact absurd h0 hz
            · exact h'
          simp only [printKeys, hpk, cString, if_pos h0, Outcome.ok_bind, Outcome.pure_eq, ih2 ⟨ρ', this, hz⟩,
            Outcome.ub_bind]
        · simp only [printKeys, hpk, cString, if_neg h0, Outcome.ub_bind]

theorem keys_read (env : Env) (rs : List Rec) (ρs : List (Path → Val)) (tail rest : Bytes)
    (hρ : ∀ ρ ∈ ρs, keyMessageLay.InRange ρ) (ht : tail.length < 197)
    (hn : 0 < ρs.length) (hmax : ρs.length ≤ 65536)
    (hf : FileOk 3 rs (ρs.flatMap keyMessageLay.encode ++ tail))
    (hm : ∀ n, env.alloc n = true) :
    ∃ ks, readAndPrint env (fileOf 3 rs (ρs.flatMap keyMessageLay.encode ++ tail) rest)
        = (printKeys ks >>= fun s => pure (.keys s)) ∧
      ks.map (fun k => (k.lookup [.f "User_Station_number"], (k.lookup [.f "Key_Number"]).isSome,
          k.lookup [.f "Public_key"], k.lookup [.f "Public_Key_CRC"]))
        = ρs.map (fun ρ => (some (ρ [.f "User_Station_number"]), true, some (.bytes (keyBytes ρ)),
            some (ρ [.f "Public_Key_CRC"]))) := by
  obtain ⟨h, ks, e, e2⟩ := C87_keys_partial env rs ρs tail rest hρ ht hn hmax hf hm
  obtain ⟨ks', h1, h2⟩ := keyLoop_public ρs [] tail hρ
  simp only [List.nil_append, List.length_nil] at h1
  refine ⟨ks, ?_, ?_⟩
  · simp only [readAndPrint, e, Outcome.ok_bind, printData]
  · suffices ks' = ks by rw [← this]; exact h2
    have hq : (ρs.flatMap keyMessageLay.encode ++ tail).length / 197 % 2 ^ 32 = ρs.length := by
      have : (ρs.flatMap keyMessageLay.encode).length = 197 * ρs.length := by
        clear h1 h2 hf hn hmax e e2
        induction ρs with
        | nil => rfl
        | cons ρ ρs ih =>
          have hlen : (keyMessageLay.encode ρ).length = 197 := Lay.encode_length _ _ (hρ ρ (by simp))
          rw [List.flatMap_cons, List.length_append, ih (fun ρ' h' => hρ ρ' (by simp [h'])), hlen,
            List.length_cons]
          omega
      rw [List.length_append, this]; omega
    generalize ρs.flatMap keyMessageLay.encode ++ tail = data at *
    rw [readFile_eq hf] at e
    simp only [readData, headerOf_typecode, dataField_file _ _ _ _ _ _ (hm _), Outcome.ok_bind, keyData,
      hq, if_neg (show ¬ (ρs.length ≥ 2 ^ 31 ∨ ρs.length > 65536 ∨ ρs.length = 0) by omega), new, hm,
      if_true, h1, Outcome.pure_eq] at e
    injection e with e
    simp only [Prod.mk.injEq] at e
    have := congrArg Data.key e.2.1
    exact Option.some.inj this

/-- **Partial.** C88: keys with a NUL in the bytes taken for their text are all printed, in order, each
with its station number and its checksum.
Missing: the number and the text, which are misread (`C05_violated_key_message`), and keys without a
NUL (below). -/
theorem C88_keys_partial (env : Env) (rs : List Rec) (ρs : List (Path → Val)) (tail rest : Bytes)
    (hρ : ∀ ρ ∈ ρs, keyMessageLay.InRange ρ) (ht : tail.length < 197)
    (hn : 0 < ρs.length) (hmax : ρs.length ≤ 65536)
    (hf : FileOk 3 rs (ρs.flatMap keyMessageLay.encode ++ tail))
    (hm : ∀ n, env.alloc n = true) (hz : ∀ ρ ∈ ρs, (0 : UInt8) ∈ keyBytes ρ) :
    ∃ out, readAndPrint env (fileOf 3 rs (ρs.flatMap keyMessageLay.encode ++ tail) rest) = .ok (.keys out) ∧
      out.map (fun x => (x.1, x.2.2.2))
        = ρs.map (fun ρ => (ρ [.f "User_Station_number"], ρ [.f "Public_Key_CRC"])) := by
  obtain ⟨ks, e, hk⟩ := keys_read env rs ρs tail rest hρ ht hn hmax hf hm
  obtain ⟨out, eo, ho⟩ := (printKeys_spec ρs ks hk).1 hz
  exact ⟨out, by rw [e, eo]; rfl, ho⟩

example : keyMessageLay.InRange keyMessageLay.zero ∧ (0 : UInt8) ∈ keyBytes keyMessageLay.zero :=
  ⟨Lay.zero_inRange _ (by decide) (by decide), by decide +kernel⟩

/-- A key without a NUL, as a binary key can be, is read past its end. -/
theorem C88_violated_keys (env : Env) (rs : List Rec) (ρs : List (Path → Val)) (tail rest : Bytes)
    (hρ : ∀ ρ ∈ ρs, keyMessageLay.InRange ρ) (ht : tail.length < 197)
    (hn : 0 < ρs.length) (hmax : ρs.length ≤ 65536)
    (hf : FileOk 3 rs (ρs.flatMap keyMessageLay.encode ++ tail))
    (hm : ∀ n, env.alloc n = true) (hz : ∃ ρ ∈ ρs, (0 : UInt8) ∉ keyBytes ρ) :
    readAndPrint env (fileOf 3 rs (ρs.flatMap keyMessageLay.encode ++ tail) rest) = .ub := by
  obtain ⟨ks, e, hk⟩ := keys_read env rs ρs tail rest hρ ht hn hmax hf hm
  rw [e, (printKeys_spec ρs ks hk).2 hz]
  rfl

/-- A foreign satellite prologue that was read cannot be printed: the pointer printed is null. -/
theorem C88_violated_foreign_prologue (env : Env) (rs : List Rec) (ρ : Path → Val) (pad pdata more rest : Bytes)
    (hr : sgsCommonLay.InRange ρ) (hp : pad.length = 4) (hd : 8 + pdata.length < 2 ^ 32)
    (hf : FileOk 128 rs (sgsOf ρ pad pdata ++ more))
    (text : Bytes) (ha : annotation rs = some text) (hn : ¬ Mentions (productOf text) (str "MSG"))
    (hsat : ∃ s ∈ ["GOES", "GMS", "MTSAT", "NOAA", "METOP"], Mentions (productOf text) (str s))
    (hm : ∀ n, env.alloc n = true) :
    readAndPrint env (fileOf 128 rs (sgsOf ρ pad pdata ++ more) rest) = .ub := by
  obtain ⟨h, e⟩ := C87_foreign_prologue env rs ρ pad pdata more rest hr hp hd hf text ha hn hsat hm
  simp only [readAndPrint, e, Outcome.ok_bind, printData]
  rfl

/-- An uncompressed image that was read is printed past its end: its length is taken for a number of
samples, while it is a number of bytes. -/
theorem C88_violated_uncompressed (env : Env) (rs : List Rec) (data rest : Bytes) (hf : FileOk 0 rs data)
    (bpp cols lines : Nat) (hs : structureOf rs = some (bpp, cols, lines, 0))
    (hm : env.alloc data.length = true) (h0 : data ≠ []) (hmax : data.length < 2 ^ 31) :
    readAndPrint env (fileOf 0 rs data rest) = .ub := by
  have hd0 : data.length ≠ 0 := by simpa using h0
  obtain ⟨h, s, len, e, h1, h2, h3⟩ := C87_uncompressed_partial env rs data rest hf bpp cols lines hs hm
  have hi : toInt32 data.length = (data.length : Nat) := by
    unfold toInt32
    rw [Nat.mod_eq_of_lt (by omega), if_pos hmax]
  simp only [readAndPrint, e, Outcome.ok_bind, printData, printImage, h2, hi,
    if_neg (show ¬ ((data.length : Nat) : Int) ≤ (s.length : Nat) by rw [h1]; omega), Outcome.ub_bind]

/-- A data object nothing was read into cannot be printed: its type is not initialised. -/
theorem C88_violated_fresh : printData .fresh = .ub := rfl

end Msat.Props
